import Verif.Lemmas.PoolRace
import Verif.Props.PoolConc

/-!
# C97: no data races
-/

namespace Uavcan.PoolRace
open Pool PoolConc

/-- Every step is allowed. -/
def Anything (_ : RState) (_ : RAction) : Prop := True

/-- The property as stated in `properties.jsonl`: whatever the threads do, as long as a block is used only by the thread
that owns it, there is no data race. -/
def C97_Statement : Prop :=
  ∀ (c : Cfg) (mem : Mem) (s : RState), c.WF → RRun c Anything (rinit c mem) s → ∀ a, rstep c s a ≠ some .race

theorem RRun.mono {c : Cfg} {P Q : RState → RAction → Prop} (h : ∀ s a, P s a → Q s a) {s s' : RState}
    (hr : RRun c P s s') : RRun c Q s s' := by
  induction hr with
  | nil => exact .nil _
  | snoc _ hp hs ih => exact .snoc ih (h _ _ hp) hs

theorem RRun.trans {c : Cfg} {P : RState → RAction → Prop} {s s' s'' : RState} (h1 : RRun c P s s') (h2 : RRun c P s' s'') :
    RRun c P s s'' := by
  induction h2 with
  | nil => exact h1
  | snoc _ hp hs ih => exact .snoc ih hp hs

theorem runR_run {c : Cfg} {as : List RAction} {s s' : RState} (h : runR c s as = some (.ok s')) :
    RRun c Anything s s' := by
  induction as generalizing s with
  | nil => injection h with h; injection h with h; subst h; exact .nil _
  | cons a as ih =>
    simp only [runR] at h
    split at h
    · rename_i s1 h1
      exact RRun.trans (.snoc (.nil s) trivial h1) (ih h)
    · rename_i h1; exact (h1 _ h).elim

theorem runR_race {c : Cfg} {as : List RAction} {s : RState} (h : runR c s as = some .race) :
    ∃ s' a, RRun c Anything s s' ∧ rstep c s' a = some .race := by
  induction as generalizing s with
  | nil => cases h
  | cons a as ih =>
    simp only [runR] at h
    split at h
    · rename_i s1 h1
      obtain ⟨s', a', hr, hs⟩ := ih h
      exact ⟨s', a', RRun.trans (.snoc (.nil s) trivial h1) hr, hs⟩
    · exact ⟨s, a, .nil _, h⟩

theorem runR_append {c : Cfg} {as bs : List RAction} {s s' : RState} (h : runR c s as = some (.ok s')) :
    runR c s (as ++ bs) = runR c s' bs := by
  induction as generalizing s with
  | nil => injection h with h; injection h with h; subst h; rfl
  | cons a as ih =>
    simp only [runR, List.cons_append] at h ⊢
    split at h
    · exact ih h
    · rename_i h1; exact (h1 _ h).elim

/-! ## What is right -/

/-- The steps of a run without races are steps of the pool as `Model/PoolConc.lean` has it. -/
theorem base_step {c : Cfg} {s s' : RState} {a : RAction} (hs : rstep c s a = some (.ok s')) :
    s'.base = s.base ∨ ∃ x, PoolConc.step c s.base x = some (.ok s'.base) := by
  cases a with
  | pool a =>
    refine .inr ⟨a, ?_⟩
    cases a with
    | callAlloc t => obtain ⟨b, hb, rfl⟩ := lift_ok hs; exact hb
    | load t => obtain ⟨b, hb, rfl⟩ := lift_ok hs; exact hb
    | readNext t =>
      simp only [rstep] at hs
      split at hs
      · split at hs
        · cases hs
        · obtain ⟨b, hb, rfl⟩ := lift_ok hs; exact hb
      · cases hs
    | cas t sp =>
      simp only [rstep] at hs
      split at hs
      · split at hs
        · obtain ⟨b, hb, rfl⟩ := lift_ok hs; exact hb
        · obtain ⟨b, hb, rfl⟩ := lift_ok hs; exact hb
      · cases hs
    | callFree t b =>
      simp only [rstep] at hs
      split at hs
      · obtain ⟨b, hb, rfl⟩ := lift_ok hs; exact hb
      · cases hs
    | exchange t => obtain ⟨b, hb, rfl⟩ := lift_ok hs; exact hb
    | store t =>
      simp only [rstep] at hs
      split at hs
      · split at hs
        · cases hs
        · obtain ⟨b, hb, rfl⟩ := lift_ok hs; exact hb
      · cases hs
    | clientWrite b v => cases hs
  | write t b v =>
    simp only [rstep] at hs
    split at hs
    · split at hs
      · cases hs
      · obtain ⟨b', hb, rfl⟩ := lift_ok hs; exact .inr ⟨_, hb⟩
    · cases hs
  | read t b =>
    simp only [rstep] at hs
    split at hs
    · split at hs
      · cases hs
      · injection hs with hs; injection hs with hs; subst hs; exact .inl rfl
    · cases hs
  | sync t u =>
    simp only [rstep] at hs
    injection hs with hs; injection hs with hs; subst hs; exact .inl rfl
  | pass t u b =>
    simp only [rstep] at hs
    split at hs
    · injection hs with hs; injection hs with hs; subst hs; exact .inl rfl
    · cases hs

/-- C97, partial: there is no data race, nor is a pointer outside of the pool followed, if calls of the pool do not overlap
and every call happens before the next one (`Serial`); clients may otherwise do what they like with the blocks they own. What
is known of the pool without data races then holds: every such run is one of those of C25 and C26. Missing: calls
that are not ordered so. -/
theorem C97_serial_partial {c : Cfg} (hc : c.WF) {mem : Mem} {s : RState} (h : RRun c Serial (rinit c mem) s) :
    (∀ a, rstep c s a ≠ some .race ∧ rstep c s a ≠ some .wild) ∧
    ∃ ls, Run c RaceFree (cinit c mem) ls s.base := by
  constructor
  · obtain ⟨F, H, hj⟩ := h.serial hc
    exact hj.defined hc
  · generalize hi : rinit c mem = s0 at h
    induction h with
    | nil => subst hi; exact ⟨[], .nil _⟩
    | snoc hr hp hs ih =>
      obtain ⟨ls, hl⟩ := ih
      subst hi
      obtain ⟨F, H, hj⟩ := hr.serial hc
      rcases base_step hs with e | ⟨x, hx⟩
      · rw [e]; exact ⟨ls, hl⟩
      · exact ⟨_, .snoc hl (hj.raceFree x) hx⟩

/-- The thread that makes a call. -/
def caller : RAction → Option Nat
  | .pool (.callAlloc t) => some t
  | .pool (.callFree t _) => some t
  | _ => none

/-- Runs of clients that take one lock for every call and release it after the call: the lock lets a thread in only when no
other is in, and synchronizes the thread `u` that held it last with the one that gets it. -/
inductive LockRun (c : Cfg) (mem : Mem) : RState → Nat → Prop where
  | init (u : Nat) : LockRun c mem (rinit c mem) u
  | call {s s1 s2 : RState} {a : RAction} {u t : Nat} : LockRun c mem s u → (∀ w, s.base.pc w = .idle) →
      caller a = some t → rstep c s (.sync u t) = some (.ok s1) → rstep c s1 a = some (.ok s2) → LockRun c mem s2 t
  | other {s s' : RState} {a : RAction} {u : Nat} : LockRun c mem s u → caller a = none →
      rstep c s a = some (.ok s') → LockRun c mem s' u

theorem view_mono {c : Cfg} {s s' : RState} {a : RAction} (hs : rstep c s a = some (.ok s')) (u w : Nat) :
    s.view u w ≤ s'.view u w := by
  have h1 : ∀ t, s.view u w ≤ (s.tick t).view u w := fun t => tick_mono s t u w
  have h2 : ∀ t v, s.view u w ≤ ((s.tick t).learn t v).view u w :=
    fun t v => Nat.le_trans (h1 t) (learn_mono _ _ _ _ _)
  cases a with
  | pool a =>
    cases a with
    | callAlloc t => obtain ⟨b, -, rfl⟩ := lift_ok hs; exact h1 t
    | load t => obtain ⟨b, -, rfl⟩ := lift_ok hs; exact h2 t _
    | readNext t =>
      simp only [rstep] at hs
      split at hs
      · split at hs
        · cases hs
        · obtain ⟨b, -, rfl⟩ := lift_ok hs; exact h1 t
      · cases hs
    | cas t sp =>
      simp only [rstep] at hs
      split at hs
      · split at hs
        · obtain ⟨b, -, rfl⟩ := lift_ok hs; exact h2 t _
        · obtain ⟨b, -, rfl⟩ := lift_ok hs; exact h2 t _
      · cases hs
    | callFree t b =>
      simp only [rstep] at hs
      split at hs
      · obtain ⟨b, -, rfl⟩ := lift_ok hs; exact h1 t
      · cases hs
    | exchange t => obtain ⟨b, -, rfl⟩ := lift_ok hs; exact h2 t _
    | store t =>
      simp only [rstep] at hs
      split at hs
      · split at hs
        · cases hs
        · obtain ⟨b, -, rfl⟩ := lift_ok hs; exact h1 t
      · cases hs
    | clientWrite b v => cases hs
  | write t b v =>
    simp only [rstep] at hs
    split at hs
    · split at hs
      · cases hs
      · obtain ⟨b', -, rfl⟩ := lift_ok hs; exact h1 t
    · cases hs
  | read t b =>
    simp only [rstep] at hs
    split at hs
    · split at hs
      · cases hs
      · injection hs with hs; injection hs with hs; subst hs; exact h1 t
    · cases hs
  | sync t u =>
    simp only [rstep] at hs
    injection hs with hs; injection hs with hs; subst hs; exact learn_mono _ _ _ _ _
  | pass t u b =>
    simp only [rstep] at hs
    split at hs
    · injection hs with hs; injection hs with hs; subst hs; exact learn_mono _ _ _ _ _
    · cases hs

/-- Which thread makes a step of the pool. -/
def poolThread : RAction → Option Nat
  | .pool (.callAlloc t) | .pool (.load t) | .pool (.readNext t) | .pool (.cas t _) | .pool (.callFree t _)
  | .pool (.exchange t) | .pool (.store t) => some t
  | _ => none

/-- A step of the pool is made by a thread that is in it, or calls; it counts as the last one of that thread, and moves no
other. Other steps change neither. -/
theorem step_frame {c : Cfg} {s s' : RState} {a : RAction} (hs : rstep c s a = some (.ok s')) :
    (∀ t, poolThread a = some t → (caller a = none → s.base.pc t ≠ .idle) ∧ s'.called t = s'.view t t ∧
      ∀ u, u ≠ t → s'.called u = s.called u ∧ s'.base.pc u = s.base.pc u) ∧
    (poolThread a = none → s'.called = s.called ∧ s'.base.pc = s.base.pc) := by
  have hpc : ∀ (x : Action) (b : CState) (t : Nat), PoolConc.step c s.base x = some (.ok b) →
      poolThread (.pool x) = some t → ∀ u, u ≠ t → b.pc u = s.base.pc u := by
    intro x b t hb ht u hu
    cases x <;> simp only [poolThread] at ht <;> try cases ht
    all_goals
      simp only [PoolConc.step] at hb
      split at hb <;> try cases hb
    · exact goto_ne _ _ hu
    · show (if _ then _ else _ : CState).pc u = _
      split <;> exact goto_ne _ _ hu
    · split at hb <;> cases hb
      exact goto_ne _ _ hu
    · show (if _ then _ else _ : CState).pc u = _
      split
      · exact goto_ne _ _ hu
      · exact goto_ne _ _ hu
    · split at hb <;> cases hb
      exact goto_ne _ _ hu
    · exact goto_ne _ _ hu
    · split at hb <;> cases hb
      exact goto_ne _ _ hu
  have hne : ∀ (x : Action) (b : CState) (t : Nat), PoolConc.step c s.base x = some (.ok b) →
      poolThread (.pool x) = some t → caller (.pool x) = none → s.base.pc t ≠ .idle := by
    intro x b t hb ht hx hi
    cases x <;> simp only [poolThread, caller] at ht hx <;> try cases ht
    all_goals
      first
        | (simp only [PoolConc.step] at hb; rw [hi] at hb; cases hb; done)
        | cases hx
  have main : ∀ (s1 : RState) (x : Action) (t : Nat), s1.lift c x = some (.ok s') → s1.base = s.base →
      poolThread (.pool x) = some t → s1.called t = s1.view t t → (∀ u, u ≠ t → s1.called u = s.called u) →
      (∀ t', poolThread (.pool x) = some t' → (caller (.pool x) = none → s.base.pc t' ≠ .idle) ∧
        s'.called t' = s'.view t' t' ∧ ∀ u, u ≠ t' → s'.called u = s.called u ∧ s'.base.pc u = s.base.pc u) ∧
      (poolThread (.pool x) = none → s'.called = s.called ∧ s'.base.pc = s.base.pc) := by
    intro s1 x t hl hb ht h1 h2
    obtain ⟨b, hx, rfl⟩ := lift_ok hl
    rw [hb] at hx
    refine ⟨fun t' ht' => ?_, fun h => by rw [ht] at h; cases h⟩
    have : t = t' := by rw [ht] at ht'; exact Option.some.inj ht'
    subst this
    exact ⟨hne x b t hx ht, h1, fun u hu => ⟨h2 u hu, hpc x b t hx ht u hu⟩⟩
  cases a with
  | pool a =>
    cases a with
    | callAlloc t => exact main _ _ t hs rfl rfl (if_pos rfl) (fun u hu => if_neg hu)
    | load t => exact main _ _ t hs rfl rfl (if_pos rfl) (fun u hu => if_neg hu)
    | readNext t =>
      simp only [rstep] at hs
      split at hs
      · split at hs
        · cases hs
        · exact main _ _ t hs rfl rfl (if_pos rfl) (fun u hu => if_neg hu)
      · cases hs
    | cas t sp =>
      simp only [rstep] at hs
      split at hs
      · split at hs
        · exact main _ _ t hs rfl rfl (if_pos rfl) (fun u hu => if_neg hu)
        · exact main _ _ t hs rfl rfl (if_pos rfl) (fun u hu => if_neg hu)
      · cases hs
    | callFree t b =>
      simp only [rstep] at hs
      split at hs
      · exact main _ _ t hs rfl rfl (if_pos rfl) (fun u hu => if_neg hu)
      · cases hs
    | exchange t => exact main _ _ t hs rfl rfl (if_pos rfl) (fun u hu => if_neg hu)
    | store t =>
      simp only [rstep] at hs
      split at hs
      · split at hs
        · cases hs
        · exact main _ _ t hs rfl rfl (if_pos rfl) (fun u hu => if_neg hu)
      · cases hs
    | clientWrite b v => cases hs
  | write t b v =>
    simp only [rstep] at hs
    split at hs
    · rename_i hl
      split at hs
      · cases hs
      · obtain ⟨b', hb, rfl⟩ := lift_ok hs
        refine ⟨(fun t h => nomatch h), fun _ => ⟨rfl, ?_⟩⟩
        simp only [PoolConc.step] at hb
        rw [show ((s.tick t).access t b true).base = s.base from rfl, if_pos hl.1] at hb
        injection hb with hb; injection hb with hb; subst hb; rfl
    · cases hs
  | read t b =>
    simp only [rstep] at hs
    split at hs
    · split at hs
      · cases hs
      · injection hs with hs; injection hs with hs; subst hs
        exact ⟨(fun t h => nomatch h), fun _ => ⟨rfl, rfl⟩⟩
    · cases hs
  | sync t u =>
    simp only [rstep] at hs
    injection hs with hs; injection hs with hs; subst hs
    exact ⟨(fun t h => nomatch h), fun _ => ⟨rfl, rfl⟩⟩
  | pass t u b =>
    simp only [rstep] at hs
    split at hs
    · injection hs with hs; injection hs with hs; subst hs
      exact ⟨(fun t h => nomatch h), fun _ => ⟨rfl, rfl⟩⟩
    · cases hs

/-- Runs with a lock are in order; the thread that called last knows of all calls, and only it can be in the pool. -/
theorem LockRun.serial {c : Cfg} {mem : Mem} {s : RState} {u : Nat} (h : LockRun c mem s u) :
    RRun c Serial (rinit c mem) s ∧ (∀ w, s.called w ≤ s.view u w) ∧ ∀ w, w ≠ u → s.base.pc w = .idle := by
  induction h with
  | init u => exact ⟨.nil _, fun _ => Nat.le_refl _, fun _ _ => rfl⟩
  | @call s s1 s2 a u t hl hi hcall h1 h2 ih =>
    obtain ⟨ih1, ih2, ih3⟩ := ih
    have e1 : s1 = s.learn t (s.view u) := by
      simp only [rstep] at h1; injection h1 with h1; injection h1 with h1; exact h1.symm
    have hk : ∀ w, s1.called w ≤ s1.view t w := by
      intro w
      rw [e1, learn_view, if_pos rfl]
      have : (s.learn t (s.view u)).called w = s.called w := rfl
      rw [this]
      have := ih2 w
      omega
    have hi1 : ∀ w, s1.base.pc w = .idle := by rw [e1]; exact hi
    have hser : Serial s1 a := by
      cases a with
      | pool a => cases a <;> simp only [caller] at hcall <;> first | (cases hcall; exact ⟨hi1, hk⟩) | cases hcall
      | _ => cases hcall
    have hpt : poolThread a = some t := by
      cases a with
      | pool a => cases a <;> simp only [caller] at hcall <;> first | (cases hcall; rfl) | cases hcall
      | _ => cases hcall
    refine ⟨.snoc (.snoc ih1 (show Serial s (.sync u t) from trivial) h1) hser h2, fun w => ?_, fun w hw => ?_⟩
    · obtain ⟨-, hct, hcu⟩ := (step_frame h2).1 t hpt
      by_cases hw : w = t
      · subst hw; rw [hct]; exact Nat.le_refl _
      · rw [(hcu w hw).1]; exact Nat.le_trans (hk w) (view_mono h2 t w)
    · rw [(((step_frame h2).1 t hpt).2.2 w hw).2]; exact hi1 w
  | @other s s' a u hl hcall h1 ih =>
    obtain ⟨ih1, ih2, ih3⟩ := ih
    have hser : Serial s a := by
      cases a with
      | pool a => cases a <;> first | trivial | cases hcall
      | _ => trivial
    refine ⟨.snoc ih1 hser h1, fun w => ?_, fun w hw => ?_⟩
    · cases hpt : poolThread a with
      | none => rw [((step_frame h1).2 hpt).1]; exact Nat.le_trans (ih2 w) (view_mono h1 u w)
      | some t =>
        obtain ⟨hne, hct, hcu⟩ := (step_frame h1).1 t hpt
        have : t = u := by
          by_cases e : t = u
          · exact e
          · exact absurd (ih3 t e) (hne hcall)
        subst this
        by_cases hw : w = t
        · subst hw; rw [hct]; exact Nat.le_refl _
        · rw [(hcu w hw).1]; exact Nat.le_trans (ih2 w) (view_mono h1 t w)
    · cases hpt : poolThread a with
      | none => rw [((step_frame h1).2 hpt).2]; exact ih3 w hw
      | some t =>
        obtain ⟨hne, hct, hcu⟩ := (step_frame h1).1 t hpt
        have : t = u := by
          by_cases e : t = u
          · exact e
          · exact absurd (ih3 t e) (hne hcall)
        subst this
        rw [(hcu w hw).2]; exact ih3 w hw

/-- C97, partial: clients that take a lock for every call are safe, in any number of threads. -/
theorem C97_lock_partial {c : Cfg} (hc : c.WF) {mem : Mem} {s : RState} {u : Nat} (h : LockRun c mem s u) (a : RAction) :
    rstep c s a ≠ some .race ∧ rstep c s a ≠ some .wild :=
  (C97_serial_partial hc h.serial.1).1 a

/-! ## What is not -/

/-- An `allocate` of `t` that nothing interferes with. -/
def allocR (t : Nat) : List RAction := [.pool (.callAlloc t), .pool (.load t), .pool (.readNext t), .pool (.cas t false)]

/-- A `deallocate` of `t` that nothing interferes with. -/
def freeR (t b : Nat) : List RAction := [.pool (.callFree t b), .pool (.exchange t), .pool (.store t)]

theorem racy_iff {s : RState} {t b : Nat} {w : Bool} :
    s.racy t b w = true ↔ ∃ x ∈ s.acc b, (x.write = true ∨ w = true) ∧ s.view t x.thread < x.time := by
  unfold RState.racy
  simp [List.any_eq_true]

/-- The first steps of `allocate`, up to the read of the link. -/
theorem alloc_prefix {c : Cfg} {s : RState} {t : Nat} (hi : s.base.pc t = .idle) (h0 : s.base.head ≠ 0) (as : List RAction) :
    ∃ s2, runR c s (.pool (.callAlloc t) :: .pool (.load t) :: as) = runR c s2 as ∧
      s2.base.pc t = .aLoaded s.base.head ∧ (∀ u, u ≠ t → s2.base.pc u = s.base.pc u) ∧ s2.base.head = s.base.head ∧
      s2.acc = s.acc ∧ s2.rel = s.rel ∧ (∀ w, w ≠ t → s2.view t w = max (s.view t w) (s.rel w)) ∧ s.view t t ≤ s2.view t t ∧
      (∀ u, u ≠ t → s2.view u = s.view u) ∧ s2.owner = s.owner ∧ s2.base.live = s.base.live := by
  have e1 : rstep c s (.pool (.callAlloc t)) =
      some (.ok { (s.tick t).inCall t with base := s.base.goto t .aStart }) := by
    simp only [rstep, RState.lift, PoolConc.step]
    rw [show ((s.tick t).inCall t).base = s.base from rfl, hi]
  generalize hs1 : ({ (s.tick t).inCall t with base := s.base.goto t .aStart } : RState) = s1 at e1
  have p1 : s1.base.pc t = .aStart := by subst hs1; simp [goto_pc]
  have hd1 : s1.base.head = s.base.head := by subst hs1; rfl
  have e2 : rstep c s1 (.pool (.load t)) = some (.ok { ((s1.tick t).learn t s1.rel).inCall t with
      base := s1.base.goto t (.aLoaded s.base.head) }) := by
    simp only [rstep, RState.lift, PoolConc.step]
    rw [show (((s1.tick t).learn t s1.rel).inCall t).base = s1.base from rfl, p1]
    simp only [hd1, if_neg h0]
  refine ⟨{ ((s1.tick t).learn t s1.rel).inCall t with base := s1.base.goto t (.aLoaded s.base.head) },
    by simp only [runR, e1, e2], by simp [goto_pc], ?_, hd1, ?_, ?_, ?_, ?_, ?_, ?_, ?_⟩
  all_goals subst hs1
  · intro u hu
    show ((s.base.goto t .aStart).goto t _).pc u = _
    rw [goto_ne _ _ hu, goto_ne _ _ hu]
  · rfl
  · rfl
  · intro w hw
    simp [RState.tick, RState.learn, RState.inCall, hw]
  · exact Nat.le_trans (tick_mono s t t t) (Nat.le_trans (tick_mono ((s.tick t).inCall t) t t t)
      (learn_mono (((s.tick t).inCall t).tick t) t _ t t))
  · intro u hu
    funext w
    simp [RState.tick, RState.learn, RState.inCall, hu]
  · rfl
  · rfl

theorem alloc_racy {c : Cfg} {s : RState} {t : Nat} (hi : s.base.pc t = .idle) (h0 : s.base.head ≠ 0) (as : List RAction)
    (h : ∃ x ∈ s.acc s.base.head, x.write = true ∧ x.thread ≠ t ∧ s.view t x.thread < x.time ∧ s.rel x.thread < x.time) :
    runR c s (.pool (.callAlloc t) :: .pool (.load t) :: .pool (.readNext t) :: as) = some .race := by
  obtain ⟨x, hx, hw, hne, h1, h2⟩ := h
  obtain ⟨s2, e, p2, -, -, a2, -, v2, -⟩ := alloc_prefix (c := c) hi h0 (.pool (.readNext t) :: as)
  rw [e]
  have e3 : rstep c s2 (.pool (.readNext t)) = some .race := by
    simp only [rstep, p2]
    rw [if_pos]
    rw [racy_iff, a2]
    refine ⟨x, hx, .inl hw, ?_⟩
    rw [v2 _ hne]; omega
  simp only [runR, e3]

/-- Every access is a step that has been counted. -/
def Counted (s : RState) : Prop := ∀ b, ∀ x ∈ s.acc b, x.time ≤ s.view x.thread x.thread

theorem acc_step {c : Cfg} {s s' : RState} {a : RAction} (hs : rstep c s a = some (.ok s')) :
    ∀ b, ∀ x ∈ s'.acc b, x ∈ s.acc b ∨ x.time = s'.view x.thread x.thread := by
  have acc : ∀ (s0 : RState) (t q : Nat) (w : Bool) (b : Nat) (x : Access), x ∈ (s0.access t q w).acc b →
      x ∈ s0.acc b ∨ x.time = s0.view x.thread x.thread := by
    intro s0 t q w b x hx
    rcases mem_access hx with h | ⟨-, rfl⟩
    · exact .inl h
    · exact .inr rfl
  intro b x hx
  cases a with
  | pool a =>
    cases a with
    | callAlloc t => obtain ⟨b', -, rfl⟩ := lift_ok hs; exact .inl hx
    | load t => obtain ⟨b', -, rfl⟩ := lift_ok hs; exact .inl hx
    | readNext t =>
      simp only [rstep] at hs
      split at hs
      · split at hs
        · cases hs
        · obtain ⟨b', -, rfl⟩ := lift_ok hs; exact acc (s.tick t) t _ false b x hx
      · cases hs
    | cas t sp =>
      simp only [rstep] at hs
      split at hs
      · split at hs
        · obtain ⟨b', -, rfl⟩ := lift_ok hs; exact .inl hx
        · obtain ⟨b', -, rfl⟩ := lift_ok hs; exact .inl hx
      · cases hs
    | callFree t q =>
      simp only [rstep] at hs
      split at hs
      · obtain ⟨b', -, rfl⟩ := lift_ok hs; exact .inl hx
      · cases hs
    | exchange t => obtain ⟨b', -, rfl⟩ := lift_ok hs; exact .inl hx
    | store t =>
      simp only [rstep] at hs
      split at hs
      · split at hs
        · cases hs
        · obtain ⟨b', -, rfl⟩ := lift_ok hs; exact acc (s.tick t) t _ true b x hx
      · cases hs
    | clientWrite q v => cases hs
  | write t q v =>
    simp only [rstep] at hs
    split at hs
    · split at hs
      · cases hs
      · obtain ⟨b', -, rfl⟩ := lift_ok hs; exact acc (s.tick t) t q true b x hx
    · cases hs
  | read t q =>
    simp only [rstep] at hs
    split at hs
    · split at hs
      · cases hs
      · injection hs with hs; injection hs with hs; subst hs; exact acc (s.tick t) t q false b x hx
    · cases hs
  | sync t u =>
    simp only [rstep] at hs
    injection hs with hs; injection hs with hs; subst hs; exact .inl hx
  | pass t u q =>
    simp only [rstep] at hs
    split at hs
    · injection hs with hs; injection hs with hs; subst hs; exact .inl hx
    · cases hs

theorem RRun.counted {c : Cfg} {P : RState → RAction → Prop} {mem : Mem} {s : RState} (h : RRun c P (rinit c mem) s) :
    Counted s := by
  generalize hi : rinit c mem = s0 at h
  induction h with
  | nil => subst hi; intro b x hx; simp [rinit] at hx
  | snoc hr hp hs ih =>
    intro b x hx
    rcases acc_step hs b x hx with h | h
    · exact Nat.le_trans (ih b x h) (view_mono hs _ _)
    · exact Nat.le_of_eq h

/-- C97, partial: exactly when an `allocate` that nothing interferes with is a data race: if the first free block's link has
been written by a step that happens neither before the call nor before the last change of `free_list_`. -/
theorem C97_allocate_partial {c : Cfg} {mem : Mem} {P : RState → RAction → Prop} {s : RState}
    (h : RRun c P (rinit c mem) s) {t : Nat} (hi : s.base.pc t = .idle) (h0 : s.base.head ≠ 0)
    (hb : c.isBlock s.base.head = true) :
    (runR c s (allocR t) = some .race ↔
      ∃ x ∈ s.acc s.base.head, x.write = true ∧ s.view t x.thread < x.time ∧ s.rel x.thread < x.time) ∧
    (runR c s (allocR t) ≠ some .race → ∃ s', runR c s (allocR t) = some (.ok s') ∧
      s'.base.live = s.base.head :: s.base.live ∧ s'.owner s.base.head = t ∧ s'.base.pc t = .idle ∧
      ∀ u, u ≠ t → s'.base.pc u = s.base.pc u) := by
  have hcount := h.counted
  by_cases hx : ∃ x ∈ s.acc s.base.head, x.write = true ∧ s.view t x.thread < x.time ∧ s.rel x.thread < x.time
  · have hr : runR c s (allocR t) = some .race := by
      obtain ⟨x, hx, hw, h1, h2⟩ := hx
      refine alloc_racy hi h0 _ ⟨x, hx, hw, ?_, h1, h2⟩
      intro e
      have := hcount _ x hx
      rw [e] at this h1; omega
    exact ⟨⟨fun _ => hx, fun _ => hr⟩, fun hn => absurd hr hn⟩
  · obtain ⟨s2, e, p2, q2, hd, a2, -, v2, v2t, -, -, l2⟩ := alloc_prefix (c := c) hi h0 [.pool (.readNext t), .pool (.cas t false)]
    have hnr : s2.racy t s.base.head false = false := by
      rw [Bool.eq_false_iff]
      intro hr
      rw [racy_iff, a2] at hr
      obtain ⟨x, hx', hw, hlt⟩ := hr
      have hw : x.write = true := by simpa using hw
      by_cases et : x.thread = t
      · have := hcount _ x hx'
        rw [et] at this hlt; omega
      · rw [v2 _ et] at hlt
        exact hx ⟨x, hx', hw, by omega, by omega⟩
    have hok : ∃ s', runR c s (allocR t) = some (.ok s') ∧ s'.base.live = s.base.head :: s.base.live ∧
        s'.owner s.base.head = t ∧ s'.base.pc t = .idle ∧ ∀ u, u ≠ t → s'.base.pc u = s.base.pc u := by
      have e3 : rstep c s2 (.pool (.readNext t)) = some (.ok { ((s2.tick t).access t s.base.head false).inCall t with
          base := s2.base.goto t (.aNext s.base.head (s2.base.link s.base.head)) }) := by
        simp only [rstep, p2, hnr, RState.lift, PoolConc.step]
        rw [show (((s2.tick t).access t s.base.head false).inCall t).base = s2.base from rfl, p2]
        simp [hb]
      generalize hs3 : ({ ((s2.tick t).access t s.base.head false).inCall t with
          base := s2.base.goto t (.aNext s.base.head (s2.base.link s.base.head)) } : RState) = s3 at e3
      have p3 : s3.base.pc t = .aNext s.base.head (s2.base.link s.base.head) := by subst hs3; simp [goto_pc]
      have hd3 : s3.base.head = s.base.head := by subst hs3; exact hd
      have l3 : s3.base.live = s.base.live := by subst hs3; exact l2
      have q3 : ∀ u, u ≠ t → s3.base.pc u = s.base.pc u := by
        intro u hu
        subst hs3; show (s2.base.goto t _).pc u = _
        rw [goto_ne _ _ hu]; exact q2 u hu
      have e4 : ∃ s4, rstep c s3 (.pool (.cas t false)) = some (.ok s4) ∧ s4.base.live = s.base.head :: s.base.live ∧
          s4.owner s.base.head = t ∧ s4.base.pc t = .idle ∧ ∀ u, u ≠ t → s4.base.pc u = s.base.pc u := by
        simp only [rstep, p3, hd3, and_self, if_true, RState.lift, PoolConc.step]
        rw [show (({ (((s3.tick t).learn t s3.rel).inCall t).release t with
          owner := fun b => if b = s.base.head then t else s3.owner b } : RState)).base = s3.base from rfl, p3]
        refine ⟨_, by simp only [hd3, and_self, if_true]; rfl, by simp [l3], by simp, by simp [goto_pc], fun u hu => ?_⟩
        show (s3.base.goto t .idle).pc u = _
        rw [goto_ne _ _ hu]; exact q3 u hu
      obtain ⟨s4, e4, l4⟩ := e4
      exact ⟨s4, by rw [allocR, e]; simp only [runR, e3, e4], l4⟩
    refine ⟨⟨fun hr => ?_, fun h => absurd h hx⟩, fun _ => hok⟩
    obtain ⟨s', hs', -⟩ := hok
    rw [hr] at hs'; cases hs'

/-- C97: it is `deallocate` that is at fault. In every state that can be reached, if a thread stores the link of the block it
gives back (the last step of `deallocate`) and another thread then allocates, without any synchronization by the client in between,
there is a data race: the store comes after the exchange that publishes the block, so nothing tells the other thread of it. -/
theorem C97_handover {c : Cfg} {mem : Mem} {P : RState → RAction → Prop} {s : RState} (h : RRun c P (rinit c mem) s)
    {a b old t : Nat} (hd : s.base.pc a = .dLink b old) (hh : s.base.head = b) (hb : c.isBlock b = true) (h0 : b ≠ 0)
    (hta : t ≠ a) (hi : s.base.pc t = .idle) :
    runR c s (.pool (.store a) :: allocR t) = some .race := by
  obtain ⟨H, hhb⟩ := h.hb (HB.init c mem)
  by_cases hr : s.racy a b true = true
  · have e : rstep c s (.pool (.store a)) = some .race := by
      simp only [rstep, hd, hr, if_true]
    simp only [runR, e]
  · have e : rstep c s (.pool (.store a)) = some (.ok { ((s.tick a).access a b true).inCall a with
        base := { s.base.goto a .idle with link := fun x => if x = b then old else s.base.link x } }) := by
      simp only [rstep, hd, if_neg hr, RState.lift, PoolConc.step]
      rw [show (((s.tick a).access a b true).inCall a).base = s.base from rfl, hd]
      simp only [hb, if_true]
    rw [runR, e]
    refine alloc_racy ?_ ?_ _ ⟨⟨a, s.view a a + 1, true⟩, ?_, rfl, fun e => hta e.symm, ?_, ?_⟩
    · show (s.base.goto a .idle).pc t = _
      rw [goto_ne _ _ hta]; exact hi
    · show s.base.head ≠ 0
      rw [hh]; exact h0
    · show _ ∈ ((s.tick a).access a b true).acc s.base.head
      simp only [RState.access, hh, if_true, tick_view, and_self]
      exact List.mem_cons_self ..
    · show (s.tick a).view t a < _
      rw [tick_view, if_neg (fun h => hta h.1)]
      exact Nat.lt_succ_of_le (hhb.own t a)
    · show s.rel a < _
      exact Nat.lt_succ_of_le (hhb.relOwn a)

/-- The same from the outside: a thread gives a block back, and another one allocates after that. -/
theorem C97_give_back {c : Cfg} (hc : c.WF) {mem : Mem} {s : RState} (h : RRun c Anything (rinit c mem) s)
    {a b t : Nat} (hl : b ∈ s.base.live) (ho : s.owner b = a) (hb : c.isBlock b = true)
    (hta : t ≠ a) (ha : s.base.pc a = .idle) (hi : s.base.pc t = .idle) :
    runR c s (freeR a b ++ allocR t) = some .race := by
  have h0 : b ≠ 0 := by have := Cfg.isBlock_pos hc hb; omega
  have e1 : rstep c s (.pool (.callFree a b)) = some (.ok { (s.tick a).inCall a with
      base := { s.base.goto a (.dStart b) with live := s.base.live.erase b } }) := by
    simp only [rstep, ho, if_true, RState.lift, PoolConc.step]
    rw [show ((s.tick a).inCall a).base = s.base from rfl, ha]
    simp only [hl, if_true]
  generalize hs1 : ({ (s.tick a).inCall a with
      base := { s.base.goto a (.dStart b) with live := s.base.live.erase b } } : RState) = s1 at e1
  have p1 : s1.base.pc a = .dStart b := by subst hs1; simp [goto_pc]
  have q1 : s1.base.pc t = .idle := by subst hs1; show (s.base.goto a _).pc t = _; rw [goto_ne _ _ hta]; exact hi
  have e2 : rstep c s1 (.pool (.exchange a)) = some (.ok { (((s1.tick a).learn a s1.rel).inCall a).release a with
      base := { s1.base.goto a (.dLink b s1.base.head) with head := b } }) := by
    simp only [rstep, RState.lift, PoolConc.step]
    rw [show ((((s1.tick a).learn a s1.rel).inCall a).release a).base = s1.base from rfl, p1]
  have hr2 := RRun.snoc (RRun.snoc h trivial e1) trivial e2
  have := C97_handover hr2 (a := a) (b := b) (old := s1.base.head) (t := t) (by simp [goto_pc]) rfl hb h0 hta
    (by show (s1.base.goto a _).pc t = _; rw [goto_ne _ _ hta]; exact q1)
  simpa only [freeR, List.cons_append, List.nil_append, runR, e1, e2] using this

/-- C97: `allocate` alone is at fault too. In every state that can be reached with a free block, if two threads allocate at the same
time and the one that gets the block writes into it, before the other reads what it takes for a link, there is a data race. -/
theorem C97_overlap {c : Cfg} {mem : Mem} {P : RState → RAction → Prop} {s : RState} (h : RRun c P (rinit c mem) s)
    {x y v : Nat} (hxy : x ≠ y) (hx : s.base.pc x = .idle) (hy : s.base.pc y = .idle) (h0 : s.base.head ≠ 0)
    (hb : c.isBlock s.base.head = true) :
    runR c s ([.pool (.callAlloc x), .pool (.load x)] ++ allocR y ++ [.write y s.base.head v, .pool (.readNext x)]) =
      some .race := by
  obtain ⟨H, hhb⟩ := h.hb (HB.init c mem)
  obtain ⟨s2, e, p2, o2, hd2, a2, r2, v2, -, w2, ow2, l2⟩ := alloc_prefix (c := c) hx h0
    (allocR y ++ [.write y s.base.head v, .pool (.readNext x)])
  rw [List.append_assoc, List.cons_append, List.cons_append, List.nil_append, e]
  have hyx : y ≠ x := Ne.symm hxy
  obtain ⟨s3, e3, p3, o3, hd3, a3, r3, v3, t3, w3, ow3, l3⟩ := alloc_prefix (c := c) (s := s2) (t := y)
    (by rw [o2 y hyx]; exact hy) (by rw [hd2]; exact h0)
    ([.pool (.readNext y), .pool (.cas y false)] ++ [.write y s.base.head v, .pool (.readNext x)])
  rw [show allocR y ++ [.write y s.base.head v, .pool (.readNext x)] = .pool (.callAlloc y) :: .pool (.load y) ::
    ([.pool (.readNext y), .pool (.cas y false)] ++ [.write y s.base.head v, .pool (.readNext x)]) from rfl, e3]
  rw [hd2] at p3 hd3
  have vxy : s3.view x y ≤ s3.view y y := by
    rw [w3 x hxy, v2 y hyx]
    have h1 := hhb.own x y
    have h2 := hhb.relOwn y
    rw [w2 y hyx] at t3
    omega
  have px3 : s3.base.pc x = .aLoaded s.base.head := by rw [o3 x hxy]; exact p2
  by_cases hr : s3.racy y s.base.head false = true
  · have e4 : rstep c s3 (.pool (.readNext y)) = some .race := by
      simp only [rstep, p3, hr, if_true]
    simp only [List.cons_append, runR, e4]
  · have e4 : rstep c s3 (.pool (.readNext y)) = some (.ok { ((s3.tick y).access y s.base.head false).inCall y with
        base := s3.base.goto y (.aNext s.base.head (s3.base.link s.base.head)) }) := by
      simp only [rstep, p3, if_neg hr, RState.lift, PoolConc.step]
      rw [show (((s3.tick y).access y s.base.head false).inCall y).base = s3.base from rfl, p3]
      simp [hb]
    generalize hs4 : ({ ((s3.tick y).access y s.base.head false).inCall y with
        base := s3.base.goto y (.aNext s.base.head (s3.base.link s.base.head)) } : RState) = s4 at e4
    have p4 : s4.base.pc y = .aNext s.base.head (s3.base.link s.base.head) := by subst hs4; simp [goto_pc]
    have px4 : s4.base.pc x = .aLoaded s.base.head := by
      subst hs4; show (s3.base.goto y _).pc x = _; rw [goto_ne _ _ hxy]; exact px3
    have hd4 : s4.base.head = s.base.head := by subst hs4; exact hd3
    have vxy4 : s4.view x y ≤ s4.view y y := by
      subst hs4
      show (s3.tick y).view x y ≤ (s3.tick y).view y y
      rw [tick_view, if_neg (fun h => hxy h.1)]
      exact Nat.le_trans vxy (tick_mono _ _ _ _)
    have e5 : rstep c s4 (.pool (.cas y false)) = some (.ok { (((s4.tick y).learn y s4.rel).inCall y).release y with
        owner := fun b => if b = s.base.head then y else s4.owner b,
        base := { s4.base.goto y .idle with head := s3.base.link s.base.head, live := s.base.head :: s4.base.live } }) := by
      simp only [rstep, p4, hd4, and_self, if_true, RState.lift, PoolConc.step]
      rw [show (({ (((s4.tick y).learn y s4.rel).inCall y).release y with
        owner := fun b => if b = s.base.head then y else s4.owner b } : RState)).base = s4.base from rfl, p4]
      simp [hd4]
    generalize hs5 : ({ (((s4.tick y).learn y s4.rel).inCall y).release y with
        owner := fun b => if b = s.base.head then y else s4.owner b,
        base := { s4.base.goto y .idle with head := s3.base.link s.base.head, live := s.base.head :: s4.base.live } } :
          RState) = s5 at e5
    have px5 : s5.base.pc x = .aLoaded s.base.head := by
      subst hs5; show (s4.base.goto y _).pc x = _; rw [goto_ne _ _ hxy]; exact px4
    have l5 : s.base.head ∈ s5.base.live := by subst hs5; exact List.mem_cons_self ..
    have ow5 : s5.owner s.base.head = y := by subst hs5; simp
    have vxy5 : s5.view x y ≤ s5.view y y := by
      subst hs5
      show ((s4.tick y).learn y s4.rel).view x y ≤ ((s4.tick y).learn y s4.rel).view y y
      rw [learn_view, if_neg hxy, tick_view, if_neg (fun h => hxy h.1)]
      exact Nat.le_trans vxy4 (Nat.le_trans (tick_mono s4 y y y) (learn_mono _ _ _ _ _))
    by_cases hr5 : s5.racy y s.base.head true = true
    · have e6 : rstep c s5 (.write y s.base.head v) = some .race := by
        simp only [rstep, l5, ow5, and_self, if_true, hr5]
      simp only [List.cons_append, List.nil_append, runR, e4, e5, e6]
    · have e6 : rstep c s5 (.write y s.base.head v) = some (.ok { (s5.tick y).access y s.base.head true with
          base := { s5.base with link := fun a => if a = s.base.head then v else s5.base.link a } }) := by
        simp only [rstep, l5, ow5, and_self, if_true, if_neg hr5, RState.lift, PoolConc.step]
        rw [show ((s5.tick y).access y s.base.head true).base = s5.base from rfl, if_pos l5]
      generalize hs6 : ({ (s5.tick y).access y s.base.head true with
          base := { s5.base with link := fun a => if a = s.base.head then v else s5.base.link a } } : RState) = s6 at e6
      have e7 : rstep c s6 (.pool (.readNext x)) = some .race := by
        have px6 : s6.base.pc x = .aLoaded s.base.head := by subst hs6; exact px5
        simp only [rstep, px6]
        rw [if_pos]
        rw [racy_iff]
        refine ⟨⟨y, s5.view y y + 1, true⟩, ?_, .inl rfl, ?_⟩
        · subst hs6
          show _ ∈ ((s5.tick y).access y s.base.head true).acc s.base.head
          simp only [RState.access, if_true, tick_view, and_self]
          exact List.mem_cons_self ..
        · subst hs6
          show (s5.tick y).view x y < s5.view y y + 1
          rw [tick_view, if_neg (fun h => hxy h.1)]
          omega
      simp only [List.cons_append, List.nil_append, runR, e4, e5, e6, e7]

/-- C97: the property as stated is false, in every pool: one thread allocates and gives back, and then, when that is over, another
one allocates. -/
theorem C97_full_statement_fails : ¬ C97_Statement ∧
    ∀ (c : Cfg) (mem : Mem), c.WF → ∃ b, runR c (rinit c mem) (allocR 0 ++ (freeR 0 b ++ allocR 1)) = some .race := by
  have main : ∀ (c : Cfg) (mem : Mem), c.WF →
      ∃ b, runR c (rinit c mem) (allocR 0 ++ (freeR 0 b ++ allocR 1)) = some .race := by
    intro c mem hc
    have hb : c.isBlock c.base = true := by
      have := hc.numBlocks_pos
      simp [Cfg.isBlock, this]
    have h0 : c.base ≠ 0 := by have := hc.base_pos; omega
    obtain ⟨hiff, hok⟩ := C97_allocate_partial (P := Anything) (.nil (rinit c mem)) (t := 0) rfl h0 hb
    obtain ⟨s, hs, hl, ho, hp, hu⟩ := hok (fun hr => by obtain ⟨x, hx, -⟩ := hiff.1 hr; cases hx)
    refine ⟨c.base, ?_⟩
    rw [runR_append hs]
    exact C97_give_back hc (runR_run hs) (by rw [hl]; exact List.mem_cons_self ..) ho hb (by decide) hp
      (by rw [hu 1 (by decide)]; rfl)
  refine ⟨fun h => ?_, main⟩
  obtain ⟨b, hb⟩ := main cfg2 (fun _ => 0) cfg2_wf
  obtain ⟨s, a, hr, hs⟩ := runR_race hb
  exact h cfg2 _ s cfg2_wf hr a hs

/-! ## Concrete runs -/

/-- What became of a run. -/
def verdict : Option Res → String
  | none => "impossible"
  | some (.ok _) => "ok"
  | some .race => "race"
  | some .wild => "wild"

/-- Two threads that synchronize, as with a lock: no race, although both write into the block and it goes from one to the other
and back. -/
example : verdict (runR cfg2 (rinit cfg2 fun _ => 0) (allocR 0 ++ [.write 0 16 7] ++ freeR 0 16 ++ [.sync 0 1] ++ allocR 1 ++
    [.write 1 16 9, .read 1 16] ++ freeR 1 16 ++ [.sync 1 0] ++ allocR 0)) = "ok" := by decide

/-- A block handed over: the receiver gives it back, and tells the first thread. -/
example : verdict (runR cfg2 (rinit cfg2 fun _ => 0) (allocR 0 ++ [.write 0 16 7, .pass 0 1 16, .read 1 16] ++ freeR 1 16 ++
    [.sync 1 0] ++ allocR 0)) = "ok" := by decide

/-- Without the last synchronization it is a race. -/
example : verdict (runR cfg2 (rinit cfg2 fun _ => 0) (allocR 0 ++ [.write 0 16 7, .pass 0 1 16, .read 1 16] ++ freeR 1 16 ++
    allocR 0)) = "race" := by decide

/-- Several threads that only allocate and keep what they get, one after the other, are safe without synchronization of their own. -/
example : verdict (runR cfg2 (rinit cfg2 fun _ => 0) (allocR 0 ++ [.write 0 16 7] ++ allocR 1 ++ [.write 1 24 7])) = "ok" := by
  decide

/-- The hypotheses of `C97_overlap` hold at the start. -/
example : verdict (runR cfg2 (rinit cfg2 fun _ => 0) ([.pool (.callAlloc 0), .pool (.load 0)] ++ allocR 1 ++
    [.write 1 16 5, .pool (.readNext 0)])) = "race" :=
  congrArg verdict (C97_overlap (P := Anything) (.nil (rinit cfg2 fun _ => 0)) (x := 0) (y := 1) (v := 5) (by decide) rfl rfl
    (by decide) (by decide))

/-- A run in the sense of `C97_lock_partial`. -/
example : ∃ s, LockRun cfg2 (fun _ => 0) s 1 ∧ s.base.pc 1 = .aStart :=
  ⟨_, .call (.init 0) (fun _ => rfl) (a := .pool (.callAlloc 1)) rfl rfl rfl, by decide⟩

end Uavcan.PoolRace
