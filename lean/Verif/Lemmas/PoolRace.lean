import Verif.Model.PoolRace
import Verif.Lemmas.PoolConc

/-!
# Lemmas about what happens before what in the pool
-/

namespace Uavcan.PoolRace
open Pool PoolConc

/-! ## Vector clocks -/

/-- What the clocks mean: `H w k` is (a lower bound of) what `w` knew at its `k`-th step, and whoever knows of that step
knows that. -/
structure HB (s : RState) (H : Nat → Nat → Nat → Nat) : Prop where
  own : ∀ u w, s.view u w ≤ s.view w w
  relOwn : ∀ w, s.rel w ≤ s.view w w
  causal : ∀ u w k, k ≤ s.view u w → ∀ x, H w k x ≤ s.view u x
  relCausal : ∀ w k, k ≤ s.rel w → ∀ x, H w k x ≤ s.rel x
  calledLe : ∀ u, s.called u ≤ s.view u u

theorem HB.init (c : Cfg) (mem : Mem) : HB (rinit c mem) (fun _ _ _ => 0) := by
  constructor <;> intros <;> simp [rinit]

/-- The new history when `t` makes a step. -/
def record (s : RState) (t : Nat) (H : Nat → Nat → Nat → Nat) : Nat → Nat → Nat → Nat :=
  fun w k => if w = t ∧ k = s.view t t + 1 then (s.tick t).view t else H w k

theorem tick_view (s : RState) (t u w : Nat) :
    (s.tick t).view u w = if u = t ∧ w = t then s.view t t + 1 else s.view u w := rfl

theorem learn_view (s : RState) (t : Nat) (v : Nat → Nat) (u w : Nat) :
    (s.learn t v).view u w = if u = t then max (s.view t w) (v w) else s.view u w := rfl

theorem tick_mono (s : RState) (t u w : Nat) : s.view u w ≤ (s.tick t).view u w := by
  rw [tick_view]; split
  · rename_i h; rw [h.1, h.2]; omega
  · omega

theorem learn_mono (s : RState) (t : Nat) (v : Nat → Nat) (u w : Nat) : s.view u w ≤ (s.learn t v).view u w := by
  rw [learn_view]; split
  · rename_i h; rw [h]; omega
  · omega

theorem HB.tick {s : RState} {H : Nat → Nat → Nat → Nat} (h : HB s H) (t : Nat) : HB (s.tick t) (record s t H) where
  own u w := by
    have := h.own u w
    simp only [tick_view]
    by_cases hw : w = t
    · subst hw
      by_cases hu : u = w
      · subst hu; simp
      · simp [hu]; omega
    · simp [hw]; exact this
  relOwn w := Nat.le_trans (h.relOwn w) (tick_mono s t w w)
  causal u w k hk x := by
    unfold record
    rw [tick_view] at hk
    split
    · rename_i hc
      obtain ⟨rfl, rfl⟩ := hc
      have : u = w := by
        by_cases hu : u = w
        · exact hu
        · simp only [hu, false_and, if_false] at hk
          have := h.own u w
          omega
      subst this
      exact Nat.le_refl _
    · rename_i hc
      refine Nat.le_trans (h.causal u w k ?_ x) (tick_mono s t u x)
      split at hk
      · rename_i he
        obtain ⟨rfl, rfl⟩ := he
        have : k ≠ s.view w w + 1 := fun h => hc ⟨rfl, h⟩
        omega
      · exact hk
  relCausal w k hk x := by
    unfold record
    split
    · rename_i hc
      obtain ⟨rfl, rfl⟩ := hc
      have := h.relOwn w
      have hk' : s.view w w + 1 ≤ s.rel w := hk
      omega
    · exact h.relCausal w k hk x
  calledLe u := Nat.le_trans (h.calledLe u) (tick_mono s t u u)

theorem HB.learn {s : RState} {H : Nat → Nat → Nat → Nat} (h : HB s H) (t : Nat) (v : Nat → Nat)
    (hv : ∀ w, v w ≤ s.view w w) (hc : ∀ w k, k ≤ v w → ∀ x, H w k x ≤ v x) : HB (s.learn t v) H where
  own u w := by
    have h1 := h.own u w
    have h2 := hv w
    have h3 := h.own t w
    rw [learn_view, learn_view]
    split <;> split
    · subst_vars; omega
    · omega
    · rename_i hw; subst hw; omega
    · exact h1
  relOwn w := Nat.le_trans (h.relOwn w) (learn_mono s t v w w)
  causal u w k hk x := by
    rw [learn_view] at hk ⊢
    split at hk
    · rename_i hu
      rw [if_pos hu]
      by_cases hk' : k ≤ s.view t w
      · have := h.causal t w k hk' x; omega
      · have := hc w k (by omega) x; omega
    · rename_i hu
      rw [if_neg hu]
      exact h.causal u w k hk x
  relCausal := h.relCausal
  calledLe u := Nat.le_trans (h.calledLe u) (learn_mono s t v u u)

theorem HB.learnRel {s : RState} {H : Nat → Nat → Nat → Nat} (h : HB s H) (t : Nat) : HB (s.learn t s.rel) H :=
  h.learn t s.rel h.relOwn h.relCausal

theorem HB.learnView {s : RState} {H : Nat → Nat → Nat → Nat} (h : HB s H) (t u : Nat) : HB (s.learn t (s.view u)) H :=
  h.learn t (s.view u) (h.own u) (h.causal u)

theorem HB.release {s : RState} {H : Nat → Nat → Nat → Nat} (h : HB s H) (t : Nat) : HB (s.release t) H :=
  ⟨h.own, h.own t, h.causal, h.causal t, h.calledLe⟩

theorem HB.inCall {s : RState} {H : Nat → Nat → Nat → Nat} (h : HB s H) (t : Nat) : HB (s.inCall t) H where
  own := h.own
  relOwn := h.relOwn
  causal := h.causal
  relCausal := h.relCausal
  calledLe u := by
    show (if u = t then s.view t t else s.called u) ≤ s.view u u
    split
    · rename_i hu; rw [hu]; exact Nat.le_refl _
    · exact h.calledLe u

theorem HB.access {s : RState} {H : Nat → Nat → Nat → Nat} (h : HB s H) (t b : Nat) (w : Bool) : HB (s.access t b w) H :=
  ⟨h.own, h.relOwn, h.causal, h.relCausal, h.calledLe⟩

theorem HB.congr {s s' : RState} {H : Nat → Nat → Nat → Nat} (h : HB s H) (h1 : s'.view = s.view) (h2 : s'.rel = s.rel)
    (h3 : s'.called = s.called) : HB s' H := by
  constructor
  · rw [h1]; exact h.own
  · rw [h1, h2]; exact h.relOwn
  · rw [h1]; exact h.causal
  · rw [h2]; exact h.relCausal
  · rw [h1, h3]; exact h.calledLe

theorem lift_ok {c : Cfg} {s s' : RState} {a : Action} (h : s.lift c a = some (.ok s')) :
    ∃ b, PoolConc.step c s.base a = some (.ok b) ∧ s' = { s with base := b } := by
  unfold RState.lift at h
  split at h
  · cases h
  · cases h
  · rename_i b hb
    injection h with h; injection h with h
    exact ⟨b, hb, h.symm⟩

theorem lift_not_race {c : Cfg} {s : RState} {a : Action} : s.lift c a ≠ some .race := by
  unfold RState.lift
  split <;> simp

theorem lift_wild {c : Cfg} {s : RState} {a : Action} (h : s.lift c a = some .wild) :
    ∃ u, PoolConc.step c s.base a = some (.ub u) := by
  unfold RState.lift at h
  split at h
  · cases h
  · rename_i u hu; exact ⟨u, hu⟩
  · cases h

theorem racy_false {s : RState} {t b : Nat} (h : ∀ x ∈ s.acc b, x.time ≤ s.view t x.thread) (w : Bool) :
    s.racy t b w = false := by
  unfold RState.racy
  rw [List.any_eq_false]
  intro x hx
  have := h x hx
  simp only [Bool.and_eq_true, decide_eq_true_eq, not_and, Nat.not_lt]
  exact fun _ => this

/-- The clocks are meaningful in every interleaving. -/
theorem HB.step {c : Cfg} {s s' : RState} {H : Nat → Nat → Nat → Nat} (h : HB s H) {a : RAction}
    (hs : rstep c s a = some (.ok s')) : ∃ H', HB s' H' := by
  cases a with
  | pool a =>
    cases a with
    | callAlloc t =>
      obtain ⟨b, -, rfl⟩ := lift_ok hs
      exact ⟨_, ((h.tick t).inCall t).congr rfl rfl rfl⟩
    | load t =>
      obtain ⟨b, -, rfl⟩ := lift_ok hs
      exact ⟨_, (((h.tick t).learnRel t).inCall t).congr rfl rfl rfl⟩
    | readNext t =>
      simp only [rstep] at hs
      split at hs
      · split at hs
        · cases hs
        · obtain ⟨b, -, rfl⟩ := lift_ok hs
          exact ⟨_, ((h.tick t).inCall t).congr rfl rfl rfl⟩
      · cases hs
    | cas t sp =>
      simp only [rstep] at hs
      split at hs
      · split at hs
        · obtain ⟨b, -, rfl⟩ := lift_ok hs
          exact ⟨_, ((((h.tick t).learnRel t).inCall t).release t).congr rfl rfl rfl⟩
        · obtain ⟨b, -, rfl⟩ := lift_ok hs
          exact ⟨_, (((h.tick t).learnRel t).inCall t).congr rfl rfl rfl⟩
      · cases hs
    | callFree t b =>
      simp only [rstep] at hs
      split at hs
      · obtain ⟨b, -, rfl⟩ := lift_ok hs
        exact ⟨_, ((h.tick t).inCall t).congr rfl rfl rfl⟩
      · cases hs
    | exchange t =>
      obtain ⟨b, -, rfl⟩ := lift_ok hs
      exact ⟨_, ((((h.tick t).learnRel t).inCall t).release t).congr rfl rfl rfl⟩
    | store t =>
      simp only [rstep] at hs
      split at hs
      · split at hs
        · cases hs
        · obtain ⟨b, -, rfl⟩ := lift_ok hs
          exact ⟨_, ((h.tick t).inCall t).congr rfl rfl rfl⟩
      · cases hs
    | clientWrite b v => cases hs
  | write t b v =>
    simp only [rstep] at hs
    split at hs
    · split at hs
      · cases hs
      · obtain ⟨b, -, rfl⟩ := lift_ok hs
        exact ⟨_, (h.tick t).congr rfl rfl rfl⟩
    · cases hs
  | read t b =>
    simp only [rstep] at hs
    split at hs
    · split at hs
      · cases hs
      · injection hs with hs; injection hs with hs; subst hs
        exact ⟨_, (h.tick t).access t b false⟩
    · cases hs
  | sync t u =>
    simp only [rstep] at hs
    injection hs with hs; injection hs with hs; subst hs
    exact ⟨_, h.learnView u t⟩
  | pass t u b =>
    simp only [rstep] at hs
    split at hs
    · injection hs with hs; injection hs with hs; subst hs
      exact ⟨_, (h.learnView u t).congr rfl rfl rfl⟩
    · cases hs

theorem RRun.hb {c : Cfg} {P : RState → RAction → Prop} {s s' : RState} {H : Nat → Nat → Nat → Nat} (h : HB s H)
    (hr : RRun c P s s') : ∃ H', HB s' H' := by
  induction hr with
  | nil => exact ⟨H, h⟩
  | snoc hr _ hs ih =>
    obtain ⟨H', h'⟩ := ih
    exact h'.step hs

/-! ## Calls in order -/

/-- The discipline under which there are no races: a thread enters the pool only while no other one is in it, and only
if the last call of every other thread happens before it. -/
def Serial (s : RState) : RAction → Prop
  | .pool (.callAlloc t) => (∀ u, s.base.pc u = .idle) ∧ ∀ u, s.called u ≤ s.view t u
  | .pool (.callFree t _) => (∀ u, s.base.pc u = .idle) ∧ ∀ u, s.called u ≤ s.view t u
  | _ => True

/-- The invariant under the discipline. -/
structure J (c : Cfg) (s : RState) (F : List Nat) (H : Nat → Nat → Nat → Nat) : Prop where
  cinv : CInv c s.base F
  hb : HB s H
  solo : ∀ t u, s.base.pc t ≠ .idle → s.base.pc u ≠ .idle → t = u
  live : ∀ b, b ∈ s.base.live → ∀ x ∈ s.acc b, x.time ≤ s.view (s.owner b) x.thread
  incall : ∀ t, s.base.pc t ≠ .idle → ∀ b, b ∉ s.base.live → ∀ x ∈ s.acc b, x.time ≤ s.view t x.thread
  idle : (∀ t, s.base.pc t = .idle) → ∀ b, b ∉ s.base.live → ∀ x ∈ s.acc b, ∃ u, x.time ≤ H u (s.called u) x.thread
  cand : ∀ t p, (s.base.pc t = .aLoaded p ∨ ∃ n, s.base.pc t = .aNext p n) → s.base.head = p ∧ p ≠ 0

theorem J.init {c : Cfg} (hc : c.WF) (mem : Mem) :
    J c (rinit c mem) ((List.range c.numBlocks).map c.blockAddr) (fun _ _ _ => 0) where
  cinv := CInv.init hc mem
  hb := HB.init c mem
  solo t u h := absurd rfl h
  live b _ x hx := by simp [rinit] at hx
  incall t h := absurd rfl h
  idle _ b _ x hx := by simp [rinit] at hx
  cand t p h := by
    rcases h with h | ⟨n, h⟩ <;> cases h

/-- What the thread in the pool knows: all accesses to blocks that no client holds. -/
def Knows (s : RState) (t : Nat) : Prop :=
  ∀ b, b ∉ s.base.live → ∀ x ∈ s.acc b, x.time ≤ s.view t x.thread

theorem J.knows_enter {c : Cfg} {s : RState} {F : List Nat} {H : Nat → Nat → Nat → Nat} (h : J c s F H) {t : Nat}
    (hi : ∀ u, s.base.pc u = .idle) (hk : ∀ u, s.called u ≤ s.view t u) : Knows s t := by
  intro b hb x hx
  obtain ⟨u, hu⟩ := h.idle hi b hb x hx
  exact Nat.le_trans hu (h.hb.causal t u _ (hk u) _)

theorem J.others {c : Cfg} {s : RState} {F : List Nat} {H : Nat → Nat → Nat → Nat} (h : J c s F H) {t : Nat}
    (ht : s.base.pc t ≠ .idle) (u : Nat) (hu : u ≠ t) : s.base.pc u = .idle := by
  by_cases hi : s.base.pc u = .idle
  · exact hi
  · exact absurd (h.solo u t hi ht) hu

/-- A step of the thread in the pool keeps the invariant. -/
theorem J.pool_step {c : Cfg} {s s' : RState} {F F' : List Nat} {H : Nat → Nat → Nat → Nat} (h : J c s F H) {t : Nat}
    (others : ∀ u, u ≠ t → s.base.pc u = .idle) (K : Knows s t) (cinv' : CInv c s'.base F')
    (hb' : HB s' (record s t H)) (view' : ∀ u w, (s.tick t).view u w ≤ s'.view u w)
    (called' : s'.called t = s.view t t + 1) (pc' : ∀ u, u ≠ t → s'.base.pc u = s.base.pc u)
    (acc' : ∀ b x, x ∈ s'.acc b → x ∈ s.acc b ∨ (b ∉ s.base.live ∧ x.thread = t ∧ x.time = s.view t t + 1))
    (live' : ∀ b, b ∈ s'.base.live → (b ∈ s.base.live ∧ s'.owner b = s.owner b) ∨ (s'.owner b = t ∧ b ∉ s.base.live))
    (dead' : ∀ b, b ∉ s'.base.live → b ∉ s.base.live ∨ s.owner b = t)
    (cand' : ∀ p, (s'.base.pc t = .aLoaded p ∨ ∃ n, s'.base.pc t = .aNext p n) → s'.base.head = p ∧ p ≠ 0) :
    J c s' F' (record s t H) := by
  have hv : ∀ u w, s.view u w ≤ s'.view u w := fun u w => Nat.le_trans (tick_mono s t u w) (view' u w)
  have htt : (s.tick t).view t t = s.view t t + 1 := by rw [tick_view]; simp
  have key : ∀ b, (b ∉ s.base.live ∨ s.owner b = t) → ∀ x ∈ s'.acc b, x.time ≤ (s.tick t).view t x.thread := by
    intro b hb x hx
    rcases acc' b x hx with hx | ⟨_, ht, hx⟩
    · refine Nat.le_trans ?_ (tick_mono s t t x.thread)
      by_cases hl : b ∈ s.base.live
      · rcases hb with hb | hb
        · exact absurd hl hb
        · have := h.live b hl x hx
          rw [hb] at this; exact this
      · exact K b hl x hx
    · rw [ht, htt, hx]; exact Nat.le_refl _
  have idle' : ∀ u, s'.base.pc u ≠ .idle → u = t := by
    intro u hu
    by_cases h1 : u = t
    · exact h1
    · rw [pc' u h1, others u h1] at hu
      exact absurd rfl hu
  refine ⟨cinv', hb', fun a b ha hb => (idle' a ha).trans (idle' b hb).symm, ?_, ?_, ?_, ?_⟩
  · intro b hb x hx
    rcases live' b hb with ⟨hl, ho⟩ | ⟨ho, hl⟩
    · rcases acc' b x hx with hx | ⟨h1, _⟩
      · rw [ho]; exact Nat.le_trans (h.live b hl x hx) (hv _ _)
      · exact absurd hl h1
    · rw [ho]; exact Nat.le_trans (key b (.inl hl) x hx) (view' _ _)
  · intro u hu b hb x hx
    rw [idle' u hu]
    exact Nat.le_trans (key b (dead' b hb) x hx) (view' _ _)
  · intro _ b hb x hx
    refine ⟨t, ?_⟩
    rw [called']
    have : record s t H t (s.view t t + 1) = (s.tick t).view t := by simp [record]
    rw [this]
    exact key b (dead' b hb) x hx
  · intro u p hp
    have : u = t := idle' u (by rcases hp with hp | ⟨n, hp⟩ <;> rw [hp] <;> simp)
    subst this
    exact cand' p hp

/-- A step outside of the pool that only adds to what is known, and perhaps an access of the owner. -/
theorem J.client_step {c : Cfg} {s s' : RState} {F : List Nat} {H H' : Nat → Nat → Nat → Nat} (h : J c s F H)
    (cinv' : CInv c s'.base F) (hb' : HB s' H') (hH : ∀ u, H' u (s.called u) = H u (s.called u))
    (view' : ∀ u w, s.view u w ≤ s'.view u w) (called' : s'.called = s.called) (pc' : s'.base.pc = s.base.pc)
    (head' : s'.base.head = s.base.head) (live' : s'.base.live = s.base.live)
    (acc' : ∀ b, b ∉ s.base.live → s'.acc b = s.acc b)
    (own' : ∀ b, b ∈ s.base.live → ∀ x ∈ s'.acc b, x.time ≤ s'.view (s'.owner b) x.thread) : J c s' F H' := by
  refine ⟨cinv', hb', by rw [pc']; exact h.solo, ?_, ?_, ?_, ?_⟩
  · rw [live']; exact own'
  · rw [pc', live']
    intro t ht b hb x hx
    rw [acc' b hb] at hx
    exact Nat.le_trans (h.incall t ht b hb x hx) (view' _ _)
  · rw [pc', live', called']
    intro hi b hb x hx
    rw [acc' b hb] at hx
    obtain ⟨u, hu⟩ := h.idle hi b hb x hx
    exact ⟨u, by rw [hH]; exact hu⟩
  · rw [pc', head']; exact h.cand

/-- Under the discipline the conditions of `RaceFree` hold. -/
theorem J.raceFree {c : Cfg} {s : RState} {F : List Nat} {H : Nat → Nat → Nat → Nat} (h : J c s F H) (a : Action) :
    RaceFree s.base a := by
  cases a with
  | readNext t =>
    intro p hp t' o ht'
    have := h.solo t t' (by rw [hp]; simp) (by rw [ht']; simp)
    subst this
    rw [hp] at ht'; cases ht'
  | exchange t =>
    intro b hb t' n ht'
    have := h.solo t t' (by rw [hb]; simp) (by rw [ht']; simp)
    subst this
    rw [hb] at ht'; cases ht'
  | _ => trivial

theorem record_called {s : RState} {H : Nat → Nat → Nat → Nat} (h : HB s H) (t u : Nat) :
    record s t H u (s.called u) = H u (s.called u) := by
  unfold record
  rw [if_neg]
  rintro ⟨rfl, h2⟩
  have := h.calledLe u
  omega

theorem goto_pc (s : CState) (t u : Nat) (q : PC) : (s.goto t q).pc u = if u = t then q else s.pc u := rfl

theorem goto_ne (s : CState) {t u : Nat} (q : PC) (h : u ≠ t) : (s.goto t q).pc u = s.pc u := by
  rw [goto_pc, if_neg h]

theorem mem_access {s : RState} {t q b : Nat} {w : Bool} {x : Access} (h : x ∈ (s.access t q w).acc b) :
    x ∈ s.acc b ∨ (b = q ∧ x = ⟨t, s.view t t, w⟩) := by
  simp only [RState.access] at h
  split at h
  · rcases List.mem_cons.1 h with h | h
    · exact .inr ⟨by assumption, h⟩
    · exact .inl h
  · exact .inl h

theorem access_ne {s : RState} {t q b : Nat} {w : Bool} (h : b ≠ q) : (s.access t q w).acc b = s.acc b := if_neg h

/-- The discipline keeps the invariant. -/
theorem J.step {c : Cfg} (hc : c.WF) {s s' : RState} {F : List Nat} {H : Nat → Nat → Nat → Nat} (h : J c s F H)
    {a : RAction} (hp : Serial s a) (hs : rstep c s a = some (.ok s')) : ∃ F' H', J c s' F' H' := by
  cases a with
  | pool a =>
    have cinv : ∀ b, PoolConc.step c s.base a = some (.ok b) → CInv c b (absStep s.base F a) := by
      intro b hb
      obtain ⟨b', e, hi⟩ := h.cinv.step hc (h.raceFree a) hb
      injection e with e; rw [e]; exact hi
    cases a with
    | callAlloc t =>
      obtain ⟨b, hb, rfl⟩ := lift_ok hs
      have ci := cinv b hb
      refine ⟨_, _, h.pool_step (t := t) (fun u _ => hp.1 u) (h.knows_enter hp.1 hp.2) ci
        (((h.hb.tick t).inCall t).congr rfl rfl rfl) (fun _ _ => Nat.le_refl _) ?_ ?_ (fun _ _ hx => .inl hx) ?_ ?_ ?_⟩
      · show (if t = t then _ else _) = _
        rw [if_pos rfl, tick_view]; simp
      all_goals
        simp only [PoolConc.step] at hb
        rw [show ((s.tick t).inCall t).base.pc t = .idle from hp.1 t] at hb
        injection hb with hb; injection hb with hb; subst hb
      · exact fun u hu => goto_ne _ _ hu
      · exact fun b hb => .inl ⟨hb, rfl⟩
      · exact fun b hb => .inl hb
      · intro p hq
        simp only [goto_pc, if_true] at hq
        rcases hq with hq | ⟨n, hq⟩ <;> cases hq
    | load t =>
      obtain ⟨b, hb, rfl⟩ := lift_ok hs
      have ci := cinv b hb
      have hpc : s.base.pc t = .aStart := by
        simp only [PoolConc.step] at hb
        split at hb
        · assumption
        · cases hb
      have hne : s.base.pc t ≠ .idle := by rw [hpc]; simp
      refine ⟨_, _, h.pool_step (t := t) (h.others hne) (h.incall t hne) ci
        ((((h.hb.tick t).learnRel t).inCall t).congr rfl rfl rfl) (fun _ _ => learn_mono _ _ _ _ _) ?_ ?_
        (fun _ _ hx => .inl hx) ?_ ?_ ?_⟩
      · show (if t = t then _ else _) = _
        rw [if_pos rfl, learn_view, if_pos rfl, tick_view]
        have := h.hb.relOwn t
        simp; omega
      all_goals
        simp only [PoolConc.step] at hb
        rw [show (((s.tick t).learn t s.rel).inCall t).base = s.base from rfl, hpc] at hb
        injection hb with hb; injection hb with hb; subst hb
      · intro u hu; show (if _ then _ else _ : CState).pc u = _
        split <;> exact goto_ne _ _ hu
      · intro b hb
        refine .inl ⟨?_, rfl⟩
        have hb : b ∈ (if _ then _ else _ : CState).live := hb
        split at hb <;> exact hb
      · intro b hb
        refine .inl ?_
        have hb : b ∉ (if _ then _ else _ : CState).live := hb
        split at hb <;> exact hb
      · intro p hq
        simp only at hq ⊢
        by_cases h0 : s.base.head = 0
        · rw [if_pos h0] at hq
          simp only [goto_pc, if_true] at hq
          rcases hq with hq | ⟨n, hq⟩ <;> cases hq
        · rw [if_neg h0] at hq ⊢
          simp only [goto_pc, if_true] at hq
          rcases hq with hq | ⟨n, hq⟩
          · injection hq with hq
            exact ⟨hq, hq ▸ h0⟩
          · cases hq
    | readNext t =>
      simp only [rstep] at hs
      split at hs
      · rename_i p hpc
        split at hs
        · cases hs
        · obtain ⟨b, hb, rfl⟩ := lift_ok hs
          have ci := cinv b hb
          have hne : s.base.pc t ≠ .idle := by rw [hpc]; simp
          obtain ⟨hhd, hp0⟩ := h.cand t p (.inl hpc)
          have hpl : p ∉ s.base.live := by
            obtain ⟨F', hF⟩ := (h.cinv.head hc).2 (by rw [hhd]; exact hp0)
            exact h.cinv.disj p (by rw [hF, hhd]; exact List.mem_cons_self ..)
          refine ⟨_, _, h.pool_step (t := t) (h.others hne) (h.incall t hne) ci
            (((h.hb.tick t).inCall t).congr rfl rfl rfl) (fun _ _ => Nat.le_refl _) ?_ ?_ ?_ ?_ ?_ ?_⟩
          · show (if t = t then _ else _) = _
            rw [if_pos rfl]
            show (s.tick t).view t t = _
            rw [tick_view]; simp
          rotate_left
          · intro b x hx
            have hx : x ∈ ((s.tick t).access t p false).acc b := hx
            rcases mem_access hx with hx | ⟨rfl, rfl⟩
            · exact .inl hx
            · refine .inr ⟨hpl, rfl, ?_⟩
              show (s.tick t).view t t = _
              rw [tick_view]; simp
          all_goals
            simp only [PoolConc.step] at hb
            rw [show (((s.tick t).access t p false).inCall t).base = s.base from rfl, hpc] at hb
            simp only at hb
            split at hb
            case isFalse => cases hb
            injection hb with hb; injection hb with hb; subst hb
          · exact fun b hb => .inl ⟨hb, rfl⟩
          · exact fun b hb => .inl hb
          · intro q hq
            simp only [goto_pc, if_true] at hq
            rcases hq with hq | ⟨n, hq⟩
            · cases hq
            · injection hq with hq _
              subst hq
              exact ⟨hhd, hp0⟩
          · exact fun u hu => goto_ne _ _ hu
      · cases hs
    | cas t sp =>
      simp only [rstep] at hs
      split at hs
      · rename_i p n hpc
        have hne : s.base.pc t ≠ .idle := by rw [hpc]; simp
        obtain ⟨hhd, hp0⟩ := h.cand t p (.inr ⟨n, hpc⟩)
        have hpl : p ∉ s.base.live := by
          obtain ⟨F', hF⟩ := (h.cinv.head hc).2 (by rw [hhd]; exact hp0)
          exact h.cinv.disj p (by rw [hF, hhd]; exact List.mem_cons_self ..)
        have hcalled : (((s.tick t).learn t s.rel).inCall t).called t = s.view t t + 1 := by
          show (if t = t then _ else _) = _
          rw [if_pos rfl, learn_view, if_pos rfl, tick_view]
          have := h.hb.relOwn t
          simp; omega
        split at hs
        · rename_i hcas
          obtain ⟨b, hb, rfl⟩ := lift_ok hs
          have ci := cinv b hb
          refine ⟨_, _, h.pool_step (t := t) (h.others hne) (h.incall t hne) ci
            (((((h.hb.tick t).learnRel t).inCall t).release t).congr rfl rfl rfl) (fun _ _ => learn_mono _ _ _ _ _)
            hcalled ?_ (fun _ _ hx => .inl hx) ?_ ?_ ?_⟩
          all_goals
            simp only [PoolConc.step] at hb
            rw [show ({ (((s.tick t).learn t s.rel).inCall t).release t with
              owner := fun b => if b = p then t else s.owner b } : RState).base = s.base from rfl, hpc] at hb
            simp only [if_pos hcas] at hb
            injection hb with hb; injection hb with hb; subst hb
          · exact fun u hu => goto_ne _ _ hu
          · intro b hb
            have hb : b ∈ p :: s.base.live := hb
            by_cases e : b = p
            · subst e
              exact .inr ⟨if_pos rfl, hpl⟩
            · exact .inl ⟨(List.mem_cons.1 hb).resolve_left e, if_neg e⟩
          · exact fun b hb => .inl fun hb' => hb (List.mem_cons_of_mem _ hb')
          · intro q hq
            have hq : (s.base.goto t .idle).pc t = _ ∨ ∃ n, (s.base.goto t .idle).pc t = _ := hq
            simp only [goto_pc, if_true] at hq
            rcases hq with hq | ⟨n, hq⟩ <;> cases hq
        · rename_i hcas
          obtain ⟨b, hb, rfl⟩ := lift_ok hs
          have ci := cinv b hb
          refine ⟨_, _, h.pool_step (t := t) (h.others hne) (h.incall t hne) ci
            ((((h.hb.tick t).learnRel t).inCall t).congr rfl rfl rfl) (fun _ _ => learn_mono _ _ _ _ _) hcalled ?_
            (fun _ _ hx => .inl hx) ?_ ?_ ?_⟩
          all_goals
            simp only [PoolConc.step] at hb
            rw [show (((s.tick t).learn t s.rel).inCall t).base = s.base from rfl, hpc] at hb
            simp only [if_neg hcas] at hb
            injection hb with hb; injection hb with hb; subst hb
          · exact fun u hu => goto_ne _ _ hu
          · exact fun b hb => .inl ⟨hb, rfl⟩
          · exact fun b hb => .inl hb
          · intro q hq
            simp only [goto_pc, if_true] at hq
            rcases hq with hq | ⟨n, hq⟩ <;> cases hq
      · cases hs
    | callFree t q =>
      simp only [rstep] at hs
      split at hs
      · rename_i hown
        obtain ⟨b, hb, rfl⟩ := lift_ok hs
        have ci := cinv b hb
        refine ⟨_, _, h.pool_step (t := t) (fun u _ => hp.1 u) (h.knows_enter hp.1 hp.2) ci
          (((h.hb.tick t).inCall t).congr rfl rfl rfl) (fun _ _ => Nat.le_refl _) ?_ ?_ (fun _ _ hx => .inl hx) ?_ ?_ ?_⟩
        · show (if t = t then _ else _) = _
          rw [if_pos rfl, tick_view]; simp
        all_goals
          simp only [PoolConc.step] at hb
          rw [show ((s.tick t).inCall t).base.pc t = .idle from hp.1 t] at hb
          simp only at hb
          split at hb
          case isFalse => cases hb
          injection hb with hb; injection hb with hb; subst hb
        · exact fun u hu => goto_ne _ _ hu
        · exact fun b hb => .inl ⟨List.mem_of_mem_erase hb, rfl⟩
        · intro b hb
          by_cases e : b = q
          · subst e; exact .inr hown
          · exact .inl fun hb' => hb ((List.mem_erase_of_ne e).2 hb')
        · intro p hq
          have hq : (s.base.goto t (.dStart q)).pc t = _ ∨ ∃ n, (s.base.goto t (.dStart q)).pc t = _ := hq
          simp only [goto_pc, if_true] at hq
          rcases hq with hq | ⟨n, hq⟩ <;> cases hq
      · cases hs
    | exchange t =>
      obtain ⟨b, hb, rfl⟩ := lift_ok hs
      have ci := cinv b hb
      have hpc : ∃ q, s.base.pc t = .dStart q := by
        simp only [PoolConc.step] at hb
        split at hb
        · exact ⟨_, by assumption⟩
        · cases hb
      obtain ⟨q, hpc⟩ := hpc
      have hne : s.base.pc t ≠ .idle := by rw [hpc]; simp
      refine ⟨_, _, h.pool_step (t := t) (h.others hne) (h.incall t hne) ci
        (((((h.hb.tick t).learnRel t).inCall t).release t).congr rfl rfl rfl) (fun _ _ => learn_mono _ _ _ _ _) ?_ ?_
        (fun _ _ hx => .inl hx) ?_ ?_ ?_⟩
      · show (if t = t then _ else _) = _
        rw [if_pos rfl, learn_view, if_pos rfl, tick_view]
        have := h.hb.relOwn t
        simp; omega
      all_goals
        simp only [PoolConc.step] at hb
        rw [show ((((s.tick t).learn t s.rel).inCall t).release t).base = s.base from rfl, hpc] at hb
        injection hb with hb; injection hb with hb; subst hb
      · exact fun u hu => goto_ne _ _ hu
      · exact fun b hb => .inl ⟨hb, rfl⟩
      · exact fun b hb => .inl hb
      · intro p hq
        have hq : (s.base.goto t (.dLink q s.base.head)).pc t = _ ∨
          ∃ n, (s.base.goto t (.dLink q s.base.head)).pc t = _ := hq
        simp only [goto_pc, if_true] at hq
        rcases hq with hq | ⟨n, hq⟩ <;> cases hq
    | store t =>
      simp only [rstep] at hs
      split at hs
      · rename_i q o hpc
        split at hs
        · cases hs
        · obtain ⟨b, hb, rfl⟩ := lift_ok hs
          have ci := cinv b hb
          have hne : s.base.pc t ≠ .idle := by rw [hpc]; simp
          have hpl : q ∉ s.base.live := h.cinv.disj q (h.cinv.dl t q o hpc)
          refine ⟨_, _, h.pool_step (t := t) (h.others hne) (h.incall t hne) ci
            (((h.hb.tick t).inCall t).congr rfl rfl rfl) (fun _ _ => Nat.le_refl _) ?_ ?_ ?_ ?_ ?_ ?_⟩
          · show (if t = t then _ else _) = _
            rw [if_pos rfl]
            show (s.tick t).view t t = _
            rw [tick_view]; simp
          rotate_left
          · intro b x hx
            have hx : x ∈ ((s.tick t).access t q true).acc b := hx
            rcases mem_access hx with hx | ⟨rfl, rfl⟩
            · exact .inl hx
            · refine .inr ⟨hpl, rfl, ?_⟩
              show (s.tick t).view t t = _
              rw [tick_view]; simp
          all_goals
            simp only [PoolConc.step] at hb
            rw [show (((s.tick t).access t q true).inCall t).base = s.base from rfl, hpc] at hb
            simp only at hb
            split at hb
            case isFalse => cases hb
            injection hb with hb; injection hb with hb; subst hb
          · exact fun b hb => .inl ⟨hb, rfl⟩
          · exact fun b hb => .inl hb
          · intro p hq
            have hq : (s.base.goto t .idle).pc t = _ ∨ ∃ n, (s.base.goto t .idle).pc t = _ := hq
            simp only [goto_pc, if_true] at hq
            rcases hq with hq | ⟨n, hq⟩ <;> cases hq
          · exact fun u hu => goto_ne _ _ hu
      · cases hs
    | clientWrite b v => cases hs
  | write t q v =>
    simp only [rstep] at hs
    split at hs
    · rename_i hl
      split at hs
      · cases hs
      · obtain ⟨b, hb, rfl⟩ := lift_ok hs
        obtain ⟨b', e, ci⟩ := h.cinv.step hc (h.raceFree (.clientWrite q v)) hb
        injection e with e; subst e
        simp only [PoolConc.step] at hb
        rw [show ((s.tick t).access t q true).base = s.base from rfl, if_pos hl.1] at hb
        injection hb with hb; injection hb with hb; subst hb
        refine ⟨_, _, h.client_step ci ((h.hb.tick t).congr rfl rfl rfl) (fun u => record_called h.hb t u)
          (fun u w => tick_mono s t u w) rfl rfl rfl rfl ?_ ?_⟩
        · intro b hb
          exact access_ne (s := s.tick t) (w := true) (fun e => hb (e ▸ hl.1))
        · intro b hb x hx
          have hx : x ∈ ((s.tick t).access t q true).acc b := hx
          show x.time ≤ (s.tick t).view (s.owner b) x.thread
          rcases mem_access hx with hx | ⟨rfl, rfl⟩
          · exact Nat.le_trans (h.live b hb x hx) (tick_mono s t _ _)
          · rw [hl.2]; exact Nat.le_refl _
    · cases hs
  | read t q =>
    simp only [rstep] at hs
    split at hs
    · rename_i hl
      split at hs
      · cases hs
      · injection hs with hs; injection hs with hs; subst hs
        refine ⟨_, _, h.client_step h.cinv ((h.hb.tick t).congr rfl rfl rfl) (fun u => record_called h.hb t u)
          (fun u w => tick_mono s t u w) rfl rfl rfl rfl ?_ ?_⟩
        · intro b hb
          exact access_ne (s := s.tick t) (w := false) (fun e => hb (e ▸ hl.1))
        · intro b hb x hx
          have hx : x ∈ ((s.tick t).access t q false).acc b := hx
          show x.time ≤ (s.tick t).view (s.owner b) x.thread
          rcases mem_access hx with hx | ⟨rfl, rfl⟩
          · exact Nat.le_trans (h.live b hb x hx) (tick_mono s t _ _)
          · rw [hl.2]; exact Nat.le_refl _
    · cases hs
  | sync t u =>
    simp only [rstep] at hs
    injection hs with hs; injection hs with hs; subst hs
    exact ⟨_, _, h.client_step h.cinv (h.hb.learnView u t) (fun _ => rfl) (fun _ _ => learn_mono _ _ _ _ _) rfl rfl rfl rfl
      (fun _ _ => rfl) (fun b hb x hx => Nat.le_trans (h.live b hb x hx) (learn_mono _ _ _ _ _))⟩
  | pass t u q =>
    simp only [rstep] at hs
    split at hs
    · rename_i hl
      injection hs with hs; injection hs with hs; subst hs
      refine ⟨_, _, h.client_step h.cinv ((h.hb.learnView u t).congr rfl rfl rfl) (fun _ => rfl)
        (fun _ _ => learn_mono _ _ _ _ _) rfl rfl rfl rfl (fun _ _ => rfl) ?_⟩
      intro b hb x hx
      have h1 := h.live b hb x hx
      show x.time ≤ (s.learn u (s.view t)).view (if b = q then u else s.owner b) x.thread
      split
      · rename_i e; subst e
        rw [hl.2] at h1
        rw [learn_view, if_pos rfl]
        omega
      · exact Nat.le_trans h1 (learn_mono _ _ _ _ _)
    · cases hs

/-- Under the discipline no step is a data race or leaves the pool. -/
theorem J.defined {c : Cfg} (hc : c.WF) {s : RState} {F : List Nat} {H : Nat → Nat → Nat → Nat} (h : J c s F H)
    (a : RAction) : rstep c s a ≠ some .race ∧ rstep c s a ≠ some .wild := by
  have nowild : ∀ (s1 : RState) (a : Action), s1.base = s.base → s1.lift c a ≠ some .wild := by
    intro s1 a e hw
    obtain ⟨u, hu⟩ := lift_wild hw
    rw [e] at hu
    obtain ⟨_, e', _⟩ := h.cinv.step hc (h.raceFree a) hu
    cases e'
  cases a with
  | pool a =>
    cases a with
    | callAlloc t => exact ⟨lift_not_race, nowild _ _ rfl⟩
    | load t => exact ⟨lift_not_race, nowild _ _ rfl⟩
    | readNext t =>
      simp only [rstep]
      split
      · rename_i p hpc
        obtain ⟨hhd, hp0⟩ := h.cand t p (.inl hpc)
        have hpl : p ∉ s.base.live := by
          obtain ⟨F', hF⟩ := (h.cinv.head hc).2 (by rw [hhd]; exact hp0)
          exact h.cinv.disj p (by rw [hF, hhd]; exact List.mem_cons_self ..)
        rw [racy_false (h.incall t (by rw [hpc]; simp) p hpl)]
        exact ⟨lift_not_race, nowild _ _ rfl⟩
      · simp
    | cas t sp =>
      simp only [rstep]
      split
      · split
        · exact ⟨lift_not_race, nowild _ _ rfl⟩
        · exact ⟨lift_not_race, nowild _ _ rfl⟩
      · simp
    | callFree t b =>
      simp only [rstep]
      split
      · exact ⟨lift_not_race, nowild _ _ rfl⟩
      · simp
    | exchange t => exact ⟨lift_not_race, nowild _ _ rfl⟩
    | store t =>
      simp only [rstep]
      split
      · rename_i q o hpc
        have hpl : q ∉ s.base.live := h.cinv.disj q (h.cinv.dl t q o hpc)
        rw [racy_false (h.incall t (by rw [hpc]; simp) q hpl)]
        exact ⟨lift_not_race, nowild _ _ rfl⟩
      · simp
    | clientWrite b v => simp [rstep]
  | write t b v =>
    simp only [rstep]
    split
    · rename_i hl
      have := h.live b hl.1
      rw [hl.2] at this
      rw [racy_false this]
      exact ⟨lift_not_race, nowild _ _ rfl⟩
    · simp
  | read t b =>
    simp only [rstep]
    split
    · rename_i hl
      have := h.live b hl.1
      rw [hl.2] at this
      rw [racy_false this]
      simp
    · simp
  | sync t u => simp [rstep]
  | pass t u b =>
    simp only [rstep]
    split <;> simp

theorem RRun.serial {c : Cfg} (hc : c.WF) {mem : Mem} {s : RState} (h : RRun c Serial (rinit c mem) s) :
    ∃ F H, J c s F H := by
  generalize hi : rinit c mem = s0 at h
  induction h with
  | nil => subst hi; exact ⟨_, _, J.init hc mem⟩
  | snoc hr hp hs ih =>
    obtain ⟨F, H, hj⟩ := ih
    exact hj.step hc hp hs

end Uavcan.PoolRace
