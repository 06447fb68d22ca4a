import Verif.Lemmas.PoolConc

/-!
# C25, C26: the static memory pool, many threads
-/

namespace Uavcan.PoolConc
open Pool Spec

/-! ## What is claimed -/

/-- Following `link` from `p` visits exactly the list, in order. -/
def Linked (link : Nat → Nat) : Nat → List Nat → Prop
  | p, [] => p = 0
  | p, a :: l => p = a ∧ Linked link (link a) l

/-- A good state: no block is held twice, only blocks of the pool are held, no next step of any thread follows a
pointer out of the pool, and when all calls have returned the free list consists of exactly the blocks nobody
holds. -/
structure Safe (c : Cfg) (s : CState) : Prop where
  noDouble : s.live.Nodup
  inPool : ∀ b ∈ s.live, c.isBlock b = true
  noWild : ∀ a u, step c s a ≠ some (.ub u)
  noneLost : (∀ t, s.pc t = .idle) →
    ∃ F, Linked s.link s.head F ∧ (F ++ s.live).Nodup ∧ ∀ b, b ∈ F ++ s.live ↔ c.isBlock b = true

/-- Every step is allowed. -/
def Any (_ : CState) (_ : Action) : Prop := True

/-- The property as stated in `properties.jsonl`. -/
def C25_Statement : Prop :=
  ∀ (c : Cfg) (mem : Mem) (ls : List Label) (s : CState), c.WF → Run c Any (cinit c mem) ls s → Safe c s

/-! ## Auxiliary facts about runs -/

theorem Run.mono {c : Cfg} {P Q : CState → Action → Prop} (h : ∀ s a, P s a → Q s a) {s s' : CState}
    {ls : List Label} (hr : Run c P s ls s') : Run c Q s ls s' := by
  induction hr with
  | nil => exact .nil _
  | snoc _ ha hs ih => exact .snoc ih (h _ _ ha) hs

/-- Effect of a label on an ideal stack; `none` if an ideal stack could not do that. -/
def effect (F : List Nat) : Label → Option (List Nat)
  | .effPop _ p => match F with
    | a :: F' => if a = p then some F' else none
    | [] => none
  | .effEmpty _ => if F = [] then some [] else none
  | .effPush _ b => some (b :: F)
  | _ => some F

/-- Effect of a sequence of labels on an ideal stack. -/
def effects (F : List Nat) : List Label → Option (List Nat)
  | [] => some F
  | l :: ls => match effect F l with
    | some F' => effects F' ls
    | none => none

theorem effects_append (F : List Nat) (ls ls' : List Label) :
    effects F (ls ++ ls') = match effects F ls with
      | some F' => effects F' ls'
      | none => none := by
  induction ls generalizing F with
  | nil => rfl
  | cons l ls ih =>
    simp only [List.cons_append, effects]
    cases effect F l with
    | none => rfl
    | some F' => exact ih F'

theorem labels_effects {c : Cfg} (hc : c.WF) {s s' : CState} {F : List Nat} (h : CInv c s F) (a : Action)
    (hs : step c s a = some (.ok s')) : effects F (labels s a) = some (absStep s F a) := by
  cases a with
  | load t =>
    simp only [labels, absStep]
    split
    · rename_i h0
      have := (h.head hc).1.1 h0
      subst this; rfl
    · rfl
  | cas t spurious =>
    simp only [labels, absStep]
    cases hp : s.pc t <;> simp only [effects]
    rename_i p n
    split
    · rename_i hh
      have hb := (h.nx t p n hp).1
      have hpos := Cfg.isBlock_pos hc hb
      obtain ⟨F', hF'⟩ := (h.head hc).2 (by omega)
      rw [hh.1] at hF'
      subst hF'
      simp [effects, effect]
    · rfl
  | exchange t =>
    simp only [labels, absStep]
    cases hp : s.pc t <;> simp [effects, effect]
  | _ => rfl

theorem Run.inv {c : Cfg} (hc : c.WF) {mem : Mem} {ls : List Label} {s : CState}
    (h : Run c RaceFree (cinit c mem) ls s) :
    ∃ F, CInv c s F ∧ effects ((List.range c.numBlocks).map c.blockAddr) ls = some F := by
  induction h with
  | nil => exact ⟨_, CInv.init hc mem, rfl⟩
  | snoc _ ha hs ih =>
    obtain ⟨F, h1, h2⟩ := ih
    obtain ⟨s'', e, h3⟩ := h1.step hc ha hs
    cases e
    refine ⟨_, h3, ?_⟩
    rw [effects_append, h2]
    exact labels_effects hc h1 _ hs

theorem CChain.linked {s : CState} {p : Nat} {l : List Nat} (hidle : ∀ t, s.pc t = .idle) (h : CChain s p l) :
    Linked s.link p l := by
  induction l generalizing p with
  | nil => exact h
  | cons a l ih =>
    obtain ⟨h1, v, h2, h3⟩ := h
    refine ⟨h1, ?_⟩
    rcases h2 with ⟨t, ht⟩ | ⟨-, h2⟩
    · rw [hidle] at ht; cases ht
    · rw [h2]; exact ih h3

/-- Writing into blocks and following links stays inside the pool. -/
theorem CInv.safe {c : Cfg} {s : CState} {F : List Nat} (h : CInv c s F) : Safe c s := by
  refine ⟨h.nodupLive, h.blkLive, ?_, ?_⟩
  · intro a u hu
    cases a with
    | readNext t =>
      simp only [PoolConc.step] at hu
      cases hp : s.pc t <;> rw [hp] at hu <;> try cases hu
      rename_i p
      simp [h.ld t p hp] at hu
    | store t =>
      simp only [PoolConc.step] at hu
      cases hp : s.pc t <;> rw [hp] at hu <;> try cases hu
      rename_i b o
      simp [h.blkF b (h.dl t b o hp)] at hu
    | callFree t b =>
      simp only [PoolConc.step] at hu
      cases hp : s.pc t <;> rw [hp] at hu <;> try cases hu
      simp only at hu
      split at hu <;> cases hu
    | clientWrite b v =>
      simp only [PoolConc.step] at hu
      split at hu <;> cases hu
    | _ t =>
      simp only [PoolConc.step] at hu
      cases hp : s.pc t <;> rw [hp] at hu <;> cases hu
  · intro hidle
    refine ⟨F, h.chain.linked hidle, ?_, ?_⟩
    · refine List.nodup_append.2 ⟨h.nodupF, h.nodupLive, ?_⟩
      intro a ha b hb e
      subst e
      exact h.disj a ha hb
    · intro b
      rw [List.mem_append]
      constructor
      · rintro (hb | hb)
        · exact h.blkF b hb
        · exact h.blkLive b hb
      · intro hb
        rcases h.cover b hb with hb | hb | ⟨t, ht⟩
        · exact .inl hb
        · exact .inr hb
        · rw [hidle] at ht; cases ht

/-! ## C25, the part that holds -/

/-- C25, partial: every interleaving, of any number of threads, that meets the two race-freedom conditions
(`RaceFree`) is safe. Missing: the conditions are not guaranteed by the code, see the refutations below. -/
theorem C25_race_free_safe_partial {c : Cfg} (hc : c.WF) {mem : Mem} {ls : List Label} {s : CState}
    (h : Run c RaceFree (cinit c mem) ls s) : Safe c s := by
  obtain ⟨F, hF, -⟩ := h.inv hc
  exact hF.safe

/-- A thread is inside `allocate`. -/
def Allocating : PC → Prop
  | .aStart | .aLoaded _ | .aNext _ _ => True
  | _ => False

/-- A thread is inside `deallocate`. -/
def Freeing : PC → Prop
  | .dStart _ | .dLink _ _ => True
  | _ => False

/-- A discipline clients can follow: `allocate` is only called while no `deallocate` is in progress, and the
other way round. (Any number of allocations may overlap each other, and so may any number of deallocations.) -/
def Phased (s : CState) : Action → Prop
  | .callAlloc _ => ∀ t, ¬ Freeing (s.pc t)
  | .callFree _ _ => ∀ t, ¬ Allocating (s.pc t)
  | _ => True

theorem phased_raceFree {c : Cfg} {s0 s : CState} {ls : List Label} (h0 : ∀ t, s0.pc t = .idle)
    (h : Run c Phased s0 ls s) :
    Run c RaceFree s0 ls s ∧ ((∀ t, ¬ Freeing (s.pc t)) ∨ ∀ t, ¬ Allocating (s.pc t)) := by
  induction h with
  | nil => exact ⟨.nil _, .inl (fun t => by rw [h0]; exact id)⟩
  | @snoc s' s'' ls a _ ha hs ih =>
    obtain ⟨h1, h2⟩ := ih
    refine ⟨.snoc h1 ?_ hs, ?_⟩
    · cases a with
      | readNext t =>
        intro p hp t' o ht'
        rcases h2 with h2 | h2
        · exact h2 t' (by rw [ht']; trivial)
        · exact h2 t (by rw [hp]; trivial)
      | exchange t =>
        intro b hb t' n ht'
        rcases h2 with h2 | h2
        · exact h2 t (by rw [hb]; trivial)
        · exact h2 t' (by rw [ht']; trivial)
      | _ => trivial
    · have key : ∀ (t : Nat) (q : PC), (∀ i, s''.pc i = if i = t then q else s'.pc i) →
          ((Freeing q → (Freeing (s'.pc t)) ∨ ∀ i, ¬ Allocating (s'.pc i)) ∧
           (Allocating q → (Allocating (s'.pc t)) ∨ ∀ i, ¬ Freeing (s'.pc i)) ∧ ¬ (Freeing q ∧ Allocating q)) →
          ((∀ t, ¬ Freeing (s''.pc t)) ∨ ∀ t, ¬ Allocating (s''.pc t)) := by
        intro t q hq ⟨k1, k2, k3⟩
        by_cases hf : Freeing q
        · right
          intro i
          rw [hq]
          split
          · exact fun ha => k3 ⟨hf, ha⟩
          · rcases h2 with h2 | h2
            · rcases k1 hf with k | k
              · exact absurd k (h2 t)
              · exact k i
            · exact h2 i
        · by_cases hal : Allocating q
          · left
            intro i
            rw [hq]
            split
            · exact hf
            · rcases h2 with h2 | h2
              · exact h2 i
              · rcases k2 hal with k | k
                · exact absurd k (h2 t)
                · exact k i
          · rcases h2 with h2 | h2
            · left; intro i; rw [hq]; split
              · exact hf
              · exact h2 i
            · right; intro i; rw [hq]; split
              · exact hal
              · exact h2 i
      cases a with
      | callAlloc t =>
        simp only [step] at hs
        cases hp : s'.pc t <;> rw [hp] at hs <;> cases hs
        exact key t .aStart (fun _ => rfl) ⟨fun h => h.elim, fun _ => .inr ha, fun h => h.1.elim⟩
      | load t =>
        simp only [step] at hs
        cases hp : s'.pc t <;> rw [hp] at hs <;> cases hs
        by_cases h0 : s'.head = 0
        · exact key t .idle (fun _ => by rw [if_pos h0]; rfl) ⟨fun h => h.elim, fun h => h.elim, fun h => h.1.elim⟩
        · exact key t (.aLoaded s'.head) (fun _ => by rw [if_neg h0]; rfl)
            ⟨fun h => h.elim, fun _ => .inl (by rw [hp]; trivial), fun h => h.1.elim⟩
      | readNext t =>
        simp only [step] at hs
        cases hp : s'.pc t <;> rw [hp] at hs <;> try cases hs
        rename_i p
        simp only at hs
        split at hs <;> cases hs
        exact key t (.aNext p (s'.link p)) (fun _ => rfl)
            ⟨fun h => h.elim, fun _ => .inl (by rw [hp]; trivial), fun h => h.1.elim⟩
      | cas t spurious =>
        simp only [step] at hs
        cases hp : s'.pc t <;> rw [hp] at hs <;> cases hs
        rename_i p n
        by_cases h0 : s'.head = p ∧ spurious = false
        · exact key t .idle (fun _ => by rw [if_pos h0]; rfl) ⟨fun h => h.elim, fun h => h.elim, fun h => h.1.elim⟩
        · exact key t .aStart (fun _ => by rw [if_neg h0]; rfl)
            ⟨fun h => h.elim, fun _ => .inl (by rw [hp]; trivial), fun h => h.1.elim⟩
      | callFree t b =>
        simp only [step] at hs
        cases hp : s'.pc t <;> rw [hp] at hs <;> try cases hs
        simp only at hs
        split at hs <;> cases hs
        exact key t (.dStart b) (fun _ => rfl) ⟨fun _ => .inr ha, fun h => h.elim, fun h => h.2.elim⟩
      | exchange t =>
        simp only [step] at hs
        cases hp : s'.pc t <;> rw [hp] at hs <;> cases hs
        rename_i b
        exact key t (.dLink b s'.head) (fun _ => rfl)
          ⟨fun _ => .inl (by rw [hp]; trivial), fun h => h.elim, fun h => h.2.elim⟩
      | store t =>
        simp only [step] at hs
        cases hp : s'.pc t <;> rw [hp] at hs <;> try cases hs
        simp only at hs
        split at hs <;> cases hs
        exact key t .idle (fun _ => rfl) ⟨fun h => h.elim, fun h => h.elim, fun h => h.1.elim⟩
      | clientWrite b v =>
        simp only [step] at hs
        split at hs <;> cases hs
        exact h2

/-- C25, partial: clients that never let an `allocate` overlap a `deallocate` are safe. -/
theorem C25_phased_safe_partial {c : Cfg} (hc : c.WF) {mem : Mem} {ls : List Label} {s : CState}
    (h : Run c Phased (cinit c mem) ls s) : Safe c s :=
  C25_race_free_safe_partial hc (phased_raceFree (fun _ => rfl) h).1

/-- C25, partial: under the same conditions `deallocate` never writes into a block that a client holds. -/
theorem C25_store_not_into_live_partial {c : Cfg} (hc : c.WF) {mem : Mem} {ls : List Label} {s : CState}
    (h : Run c RaceFree (cinit c mem) ls s) {t b old : Nat} (hp : s.pc t = .dLink b old) : b ∉ s.live := by
  obtain ⟨F, hF, -⟩ := h.inv hc
  exact hF.disj b (hF.dl t b old hp)

/-! ## C25, why the full statement is false -/

/-- Threads other than the first `n` are not used by the step. -/
def below (n : Nat) : Action → Bool
  | .callAlloc t | .load t | .readNext t | .cas t _ | .callFree t _ | .exchange t | .store t => decide (t < n)
  | .clientWrite _ _ => true

theorem step_above {c : Cfg} {n : Nat} {s s' : CState} {a : Action} (h : ∀ t, n ≤ t → s.pc t = .idle)
    (hb : below n a = true) (hs : step c s a = some (.ok s')) : ∀ t, n ≤ t → s'.pc t = .idle := by
  intro i hi
  cases a with
  | clientWrite b v =>
    simp only [step] at hs
    split at hs <;> cases hs
    exact h i hi
  | load t =>
    simp only [below, decide_eq_true_eq] at hb
    simp only [step] at hs
    cases hp : s.pc t <;> rw [hp] at hs <;> cases hs
    split <;> (simp only [CState.goto]; rw [if_neg (by omega)]; exact h i hi)
  | cas t _ =>
    simp only [below, decide_eq_true_eq] at hb
    simp only [step] at hs
    cases hp : s.pc t <;> rw [hp] at hs <;> cases hs
    split <;> (simp only [CState.goto]; rw [if_neg (by omega)]; exact h i hi)
  | _ t =>
    simp only [below, decide_eq_true_eq] at hb
    simp only [step] at hs
    cases hp : s.pc t <;> rw [hp] at hs <;> try cases hs
    all_goals first
      | (simp only [CState.goto]; rw [if_neg (by omega)]; exact h i hi)
      | (simp only at hs; split at hs <;> cases hs
         simp only [CState.goto]; rw [if_neg (by omega)]; exact h i hi)

/-- Execute steps of the first `n` threads, giving up if `check` fails. -/
def runChecked (c : Cfg) (n : Nat) (check : CState → Action → Bool) (s : CState) (ls : List Label) :
    List Action → Option (Outcome (List Label × CState))
  | [] => some (.ok (ls, s))
  | a :: as =>
    if below n a && check s a then
      match step c s a with
      | none => none
      | some (.ub u) => some (.ub u)
      | some (.ok s') => runChecked c n check s' (ls ++ labels s a) as
    else none

/-- A successful checked execution is a run; one that ends in undefined behaviour is a run to a state with an
undefined step. -/
theorem runChecked_sound {c : Cfg} {n : Nat} {check : CState → Action → Bool} {P : CState → Action → Prop}
    (hP : ∀ s a, (∀ t, n ≤ t → s.pc t = .idle) → check s a = true → P s a) {s0 s : CState} {ls : List Label}
    (h0 : Run c P s0 ls s) (hidle : ∀ t, n ≤ t → s.pc t = .idle) (as : List Action) :
    (∀ ls' s', runChecked c n check s ls as = some (.ok (ls', s')) → Run c P s0 ls' s') ∧
    (∀ u, runChecked c n check s ls as = some (.ub u) →
      ∃ ls' s' a, Run c P s0 ls' s' ∧ step c s' a = some (.ub u)) := by
  induction as generalizing s ls with
  | nil =>
    constructor
    · intro ls' s' h; cases h; exact h0
    · intro u h; cases h
  | cons a as ih =>
    simp only [runChecked]
    by_cases hb : (below n a && check s a) = true
    · rw [if_pos hb]
      rw [Bool.and_eq_true] at hb
      cases hs : step c s a with
      | none =>
        constructor
        · intro ls' s' h; cases h
        · intro u h; cases h
      | some o =>
        cases o with
        | ub u =>
          constructor
          · intro ls' s' h; cases h
          · intro u' h; cases h; exact ⟨ls, s, a, h0, hs⟩
        | ok s1 => exact ih (.snoc h0 (hP s a hidle hb.2) hs) (step_above hidle hb.1 hs)
    · rw [if_neg hb]
      constructor
      · intro ls' s' h; cases h
      · intro u h; cases h

/-- The first race-freedom condition alone: no link is read while its `deallocate` is half done. -/
def NoHalfFreedRead (s : CState) : Action → Prop
  | .readNext t => ∀ p, s.pc t = .aLoaded p → ∀ t' old, s.pc t' ≠ .dLink p old
  | _ => True

/-- The second condition alone: no block is put back while an `allocate` is about to compare-exchange it. -/
def NoPushOfCandidate (s : CState) : Action → Prop
  | .exchange t => ∀ b, s.pc t = .dStart b → ∀ t' n, s.pc t' ≠ .aNext b n
  | _ => True

/-- The two together are `RaceFree`. -/
theorem raceFree_iff (s : CState) (a : Action) : RaceFree s a ↔ NoHalfFreedRead s a ∧ NoPushOfCandidate s a := by
  cases a <;> simp [RaceFree, NoHalfFreedRead, NoPushOfCandidate]

/-- Decide the first condition when only threads below `n` run. -/
def checkNoHalfFreedRead (n : Nat) (s : CState) : Action → Bool
  | .readNext t => match s.pc t with
    | .aLoaded p => (List.range n).all fun t' => match s.pc t' with
      | .dLink b _ => b != p
      | _ => true
    | _ => true
  | _ => true

/-- Decide the second condition when only threads below `n` run. -/
def checkNoPushOfCandidate (n : Nat) (s : CState) : Action → Bool
  | .exchange t => match s.pc t with
    | .dStart b => (List.range n).all fun t' => match s.pc t' with
      | .aNext p _ => p != b
      | _ => true
    | _ => true
  | _ => true

theorem checkNoHalfFreedRead_sound (n : Nat) (s : CState) (a : Action) (h : ∀ t, n ≤ t → s.pc t = .idle)
    (hc : checkNoHalfFreedRead n s a = true) : NoHalfFreedRead s a := by
  cases a with
  | readNext t =>
    intro p hp t' old ht'
    simp only [checkNoHalfFreedRead, hp, List.all_eq_true, List.mem_range] at hc
    by_cases hlt : t' < n
    · have := hc t' hlt
      simp [ht'] at this
    · rw [h t' (by omega)] at ht'; cases ht'
  | _ => trivial

theorem checkNoPushOfCandidate_sound (n : Nat) (s : CState) (a : Action) (h : ∀ t, n ≤ t → s.pc t = .idle)
    (hc : checkNoPushOfCandidate n s a = true) : NoPushOfCandidate s a := by
  cases a with
  | exchange t =>
    intro b hp t' m ht'
    simp only [checkNoPushOfCandidate, hp, List.all_eq_true, List.mem_range] at hc
    by_cases hlt : t' < n
    · have := hc t' hlt
      simp [ht'] at this
    · rw [h t' (by omega)] at ht'; cases ht'
  | _ => trivial

/-- Two blocks of 8 bytes, at 16 and 24. -/
def cfg2 : Cfg :=
  { numBlocks := 2, blockSize := 8, ptrSize := 2, maxAlign := 4, maxAlignSize := 4, base := 16,
    exceptions := false }

theorem cfg2_wf : cfg2.WF := by
  constructor <;> first | decide | (simp [cfg2, Cfg.sizeofBlock, roundUp])

/-- All steps of an undisturbed `allocate` of thread `t`. -/
def allocSteps (t : Nat) : List Action := [.callAlloc t, .load t, .readNext t, .cas t false]

/-- All steps of a `deallocate(b)` of thread `t`. -/
def freeSteps (t b : Nat) : List Action := [.callFree t b, .exchange t, .store t]

/-- The ABA interleaving: thread 0 reads head 16 and its link 24, then sleeps; thread 1 allocates 16 and 24 and
gives 16 back; thread 0's compare-exchange succeeds and makes the live block 24 the head of the free list; the
next allocation returns 24 again. -/
def abaTrace : List Action :=
  [.callAlloc 0, .load 0, .readNext 0] ++ allocSteps 1 ++ allocSteps 1 ++ freeSteps 1 16 ++
  [.cas 0 false] ++ allocSteps 1

theorem aba_result : (match runChecked cfg2 2 (checkNoHalfFreedRead 2) (cinit cfg2 fun _ => 0) [] abaTrace with
    | some (.ok (ls, s)) => some (s.live, effects ((List.range 2).map cfg2.blockAddr) ls)
    | _ => none) = some ([24, 16, 24], none) := by decide

/-- C25: the ABA defect. Even if no link is ever read while half stored, a block can be handed out twice; the
effects are those of no stack. -/
theorem C25_aba : ∃ ls s, Run cfg2 NoHalfFreedRead (cinit cfg2 fun _ => 0) ls s ∧ s.live = [24, 16, 24] ∧
    effects ((List.range 2).map cfg2.blockAddr) ls = none := by
  have h := aba_result
  have sound := runChecked_sound (c := cfg2) (n := 2) (checkNoHalfFreedRead_sound 2)
    (.nil (cinit cfg2 fun _ => 0)) (fun _ _ => rfl) abaTrace
  split at h
  · rename_i ls s hr
    injection h with h
    injection h with h1 h2
    exact ⟨ls, s, sound.1 ls s hr, h1, h2⟩
  · cases h

/-- The publication window: thread 0, the only one that ever allocates, gets 16 and a client fills it with data;
thread 1, the only one that gives back, has exchanged the head but not yet stored the link when thread 0
allocates 16 again, takes the client's data for the link, and then follows it. -/
def windowTrace : List Action :=
  allocSteps 0 ++ [.clientWrite 16 999, .callFree 1 16, .exchange 1] ++ allocSteps 0 ++
  [.callAlloc 0, .load 0, .readNext 0]

/-- Only thread 0 allocates and only thread 1 gives back. -/
def SingleConsumer : Action → Bool
  | .callAlloc t => t == 0
  | .callFree t _ => t == 1
  | _ => true

/-- C25: the publication window. Even if no candidate is ever put back, and even with a single allocating and a
single deallocating thread, the pool follows a pointer made of client data. -/
theorem C25_publication_window : ∃ ls s a,
    Run cfg2 (fun s a => NoPushOfCandidate s a ∧ SingleConsumer a = true) (cinit cfg2 fun _ => 0) ls s ∧
    step cfg2 s a = some (.ub .wildPointer) := by
  have h : (match runChecked cfg2 2 (fun s a => checkNoPushOfCandidate 2 s a && SingleConsumer a)
      (cinit cfg2 fun _ => 0) [] windowTrace with
    | some (.ub .wildPointer) => true
    | _ => false) = true := by decide
  have sound := runChecked_sound (c := cfg2) (n := 2)
    (check := fun s a => checkNoPushOfCandidate 2 s a && SingleConsumer a)
    (P := fun s a => NoPushOfCandidate s a ∧ SingleConsumer a = true)
    (fun s a hi hb => by
      rw [Bool.and_eq_true] at hb
      exact ⟨checkNoPushOfCandidate_sound 2 s a hi hb.1, hb.2⟩)
    (.nil (cinit cfg2 fun _ => 0)) (fun _ _ => rfl) windowTrace
  split at h
  · rename_i hr
    exact sound.2 _ hr
  · cases h

/-- C25 is false of the code. -/
theorem C25_full_statement_fails : ¬ C25_Statement := by
  intro h
  obtain ⟨ls, s, hr, hl, -⟩ := C25_aba
  have := (h cfg2 _ ls s cfg2_wf (hr.mono (fun _ _ _ => trivial))).noDouble
  rw [hl] at this
  simp at this

/-- Neither condition can be dropped. -/
theorem C25_both_conditions_needed :
    ¬ (∀ c mem ls s, Cfg.WF c → Run c NoHalfFreedRead (cinit c mem) ls s → Safe c s) ∧
    ¬ (∀ c mem ls s, Cfg.WF c → Run c NoPushOfCandidate (cinit c mem) ls s → Safe c s) := by
  constructor
  · intro h
    obtain ⟨ls, s, hr, hl, -⟩ := C25_aba
    have := (h cfg2 _ ls s cfg2_wf hr).noDouble
    rw [hl] at this
    simp at this
  · intro h
    obtain ⟨ls, s, a, hr, hs⟩ := C25_publication_window
    exact (h cfg2 _ ls s cfg2_wf (hr.mono (fun _ _ hp => hp.1))).noWild a _ hs

/-- The second condition is needed wherever it is violated: in every state reached without races, if a block is
put back while some `allocate` is about to compare-exchange it, then that compare-exchange succeeds and the
pending store of `deallocate` overwrites a block that a client holds. -/
theorem C25_candidate_condition_tight {c : Cfg} {s : CState} {t t' b n : Nat}
    (hd : s.pc t = .dStart b) (ha : s.pc t' = .aNext b n) :
    ∃ s1 s2, step c s (.exchange t) = some (.ok s1) ∧ step c s1 (.cas t' false) = some (.ok s2) ∧
      b ∈ s2.live ∧ s2.pc t = .dLink b s.head := by
  have hne : t' ≠ t := by intro e; subst e; rw [hd] at ha; cases ha
  refine ⟨{ s.goto t (.dLink b s.head) with head := b },
    { (s.goto t (.dLink b s.head)).goto t' .idle with head := n, live := b :: s.live }, ?_, ?_, ?_, ?_⟩
  · simp only [step, hd]
  · simp [step, CState.goto, hne, ha]
  · simp
  · simp [CState.goto, hne.symm]

/-- The first condition is needed wherever it is violated at the head of the list. -/
theorem C25_half_freed_condition_tight {c : Cfg} {s : CState} {t t' old : Nat} (hb : c.isBlock s.head = true)
    (hd : s.pc t = .dLink s.head old) (ha : s.pc t' = .aLoaded s.head) :
    ∃ s1 s2, step c s (.readNext t') = some (.ok s1) ∧ step c s1 (.cas t' false) = some (.ok s2) ∧
      s.head ∈ s2.live ∧ s2.pc t = .dLink s.head old := by
  have hne : t ≠ t' := by intro e; subst e; rw [hd] at ha; cases ha
  refine ⟨s.goto t' (.aNext s.head (s.link s.head)),
    { (s.goto t' (.aNext s.head (s.link s.head))).goto t' .idle with
      head := s.link s.head, live := s.head :: s.live }, ?_, ?_, ?_, ?_⟩
  · simp only [step, ha, hb, if_true]
  · simp [step, CState.goto]
  · simp
  · simp [CState.goto, hne, hd]

/-- A race-free run of two overlapping allocations and a deallocation. -/
example : (match runChecked cfg2 2 (fun s a => checkNoHalfFreedRead 2 s a && checkNoPushOfCandidate 2 s a)
      (cinit cfg2 fun _ => 0) []
      ([.callAlloc 0, .load 0, .callAlloc 1, .load 1, .readNext 1, .readNext 0, .cas 1 true, .load 1,
        .readNext 1, .cas 1 false, .cas 0 false, .load 0, .readNext 0] ++ freeSteps 1 16 ++
        [.cas 0 false, .load 0, .readNext 0, .cas 0 false]) with
    | some (.ok (_, s)) => some s.live
    | _ => none) = some [16] := by decide

/-! ## C26 -/

/-- The life of one thread as seen at the interface. -/
inductive Phase where
  | out
  | inAlloc
  /-- its `allocate` has taken effect with this result -/
  | tookEffect (r : Option Nat)
  | inFree (b : Nat)
  /-- its `deallocate` has taken effect -/
  | putBack
  deriving DecidableEq, Repr

/-- How the labels of thread `t` move it through its phases; `none` if out of order. -/
def phaseStep (t : Nat) : Phase → Label → Option Phase
  | ph, .callAlloc i => if i = t then (if ph = .out then some .inAlloc else none) else some ph
  | ph, .callFree i b => if i = t then (if ph = .out then some (.inFree b) else none) else some ph
  | ph, .effPop i p => if i = t then (if ph = .inAlloc then some (.tookEffect (some p)) else none) else some ph
  | ph, .effEmpty i => if i = t then (if ph = .inAlloc then some (.tookEffect none) else none) else some ph
  | ph, .effPush i b => if i = t then (if ph = .inFree b then some .putBack else none) else some ph
  | ph, .retAlloc i r => if i = t then (if ph = .tookEffect r then some .out else none) else some ph
  | ph, .retFree i => if i = t then (if ph = .putBack then some .out else none) else some ph

/-- The phases of thread `t` over a sequence of labels. -/
def phases (t : Nat) (ph : Phase) : List Label → Option Phase
  | [] => some ph
  | l :: ls => match phaseStep t ph l with
    | some ph' => phases t ph' ls
    | none => none

theorem phases_append (t : Nat) (ph : Phase) (ls ls' : List Label) :
    phases t ph (ls ++ ls') = match phases t ph ls with
      | some ph' => phases t ph' ls'
      | none => none := by
  induction ls generalizing ph with
  | nil => rfl
  | cons l ls ih =>
    simp only [List.cons_append, phases]
    cases phaseStep t ph l with
    | none => rfl
    | some ph' => exact ih ph'

/-- The phase that a program counter means. -/
def PC.phase : PC → Phase
  | .idle => .out
  | .aStart | .aLoaded _ | .aNext _ _ => .inAlloc
  | .dStart b => .inFree b
  | .dLink _ _ => .putBack

theorem phases_step {c : Cfg} {s s' : CState} {a : Action} (hs : step c s a = some (.ok s')) (t : Nat) :
    phases t (s.pc t).phase (labels s a) = some (s'.pc t).phase := by
  cases a with
  | callAlloc i =>
    simp only [step] at hs
    cases hp : s.pc i <;> rw [hp] at hs <;> cases hs
    by_cases e : i = t
    · subst e; simp [labels, phases, phaseStep, hp, PC.phase, CState.goto]
    · simp [labels, phases, phaseStep, e, CState.goto, Ne.symm e]
  | load i =>
    simp only [step] at hs
    cases hp : s.pc i <;> rw [hp] at hs <;> cases hs
    by_cases h0 : s.head = 0
    · by_cases e : i = t
      · subst e; simp [labels, phases, phaseStep, hp, PC.phase, CState.goto, h0]
      · simp [labels, phases, phaseStep, e, CState.goto, Ne.symm e, h0]
    · by_cases e : i = t
      · subst e; simp [labels, phases, hp, PC.phase, CState.goto, h0]
      · simp [labels, phases, CState.goto, Ne.symm e, h0]
  | readNext i =>
    simp only [step] at hs
    cases hp : s.pc i <;> rw [hp] at hs <;> try cases hs
    simp only at hs
    split at hs <;> cases hs
    by_cases e : i = t
    · subst e; simp [labels, phases, hp, PC.phase, CState.goto]
    · simp [labels, phases, CState.goto, Ne.symm e]
  | cas i sp =>
    simp only [step] at hs
    cases hp : s.pc i <;> rw [hp] at hs <;> cases hs
    rename_i p n
    by_cases h0 : s.head = p ∧ sp = false
    · by_cases e : i = t
      · subst e; simp [labels, phases, phaseStep, hp, PC.phase, CState.goto, h0]
      · simp [labels, phases, phaseStep, e, CState.goto, Ne.symm e, h0, hp]
    · by_cases e : i = t
      · subst e; simp [labels, phases, hp, PC.phase, CState.goto, h0]
      · simp [labels, phases, CState.goto, Ne.symm e, h0, hp]
  | callFree i b =>
    simp only [step] at hs
    cases hp : s.pc i <;> rw [hp] at hs <;> try cases hs
    simp only at hs
    split at hs <;> cases hs
    by_cases e : i = t
    · subst e; simp [labels, phases, phaseStep, hp, PC.phase, CState.goto]
    · simp [labels, phases, phaseStep, e, CState.goto, Ne.symm e]
  | exchange i =>
    simp only [step] at hs
    cases hp : s.pc i <;> rw [hp] at hs <;> cases hs
    by_cases e : i = t
    · subst e; simp [labels, phases, phaseStep, hp, PC.phase, CState.goto]
    · simp [labels, phases, phaseStep, e, CState.goto, Ne.symm e, hp]
  | store i =>
    simp only [step] at hs
    cases hp : s.pc i <;> rw [hp] at hs <;> try cases hs
    simp only at hs
    split at hs <;> cases hs
    by_cases e : i = t
    · subst e; simp [labels, phases, phaseStep, hp, PC.phase, CState.goto]
    · simp [labels, phases, phaseStep, e, CState.goto, Ne.symm e]
  | clientWrite b v =>
    simp only [step] at hs
    split at hs <;> cases hs
    rfl

/-- C26: linearizability. In every race-free interleaving each call takes effect exactly once, between its call
and its return and with the result it returns (first part: every thread's labels come in the order call,
effect, return), and the effects, in the order in which they happen, are those of an ideal stack that initially
holds all blocks (second part). -/
theorem C26_linearizable {c : Cfg} (hc : c.WF) {mem : Mem} {ls : List Label} {s : CState}
    (h : Run c RaceFree (cinit c mem) ls s) :
    (∀ t, phases t .out ls = some (s.pc t).phase) ∧
    ∃ F, effects ((List.range c.numBlocks).map c.blockAddr) ls = some F := by
  constructor
  · intro t
    induction h with
    | nil => rfl
    | snoc _ _ hs ih =>
      rw [phases_append, ih]
      exact phases_step hs t
  · obtain ⟨F, -, hF⟩ := h.inv hc
    exact ⟨F, hF⟩

/-- C26: a failed compare-exchange that is not spurious means that some other call has taken effect since the
head was loaded: no step but a successful compare-exchange or an exchange changes the head, so somebody
always makes progress (lock-freedom). -/
theorem C26_head_changes_only_by_effects {c : Cfg} {s s' : CState} {a : Action}
    (hs : step c s a = some (.ok s')) (hne : s'.head ≠ s.head) :
    ∃ t b, Label.effPop t b ∈ labels s a ∨ Label.effPush t b ∈ labels s a := by
  cases a with
  | load t =>
    simp only [step] at hs
    cases hp : s.pc t <;> rw [hp] at hs <;> cases hs
    split at hne <;> exact absurd rfl hne
  | cas t sp =>
    simp only [step] at hs
    cases hp : s.pc t <;> rw [hp] at hs <;> cases hs
    rename_i p n
    by_cases h0 : s.head = p ∧ sp = false
    · exact ⟨t, p, .inl (by simp [labels, hp, h0])⟩
    · rw [if_neg h0] at hne; exact absurd rfl hne
  | exchange t =>
    simp only [step] at hs
    cases hp : s.pc t <;> rw [hp] at hs <;> cases hs
    rename_i b
    exact ⟨t, b, .inr (by simp [labels, hp])⟩
  | clientWrite b v =>
    simp only [step] at hs
    split at hs <;> cases hs
    exact absurd rfl hne
  | _ t =>
    simp only [step] at hs
    cases hp : s.pc t <;> rw [hp] at hs <;> try cases hs
    all_goals first
      | exact absurd rfl hne
      | (simp only at hs; split at hs <;> cases hs; exact absurd rfl hne)

/-- The steps thread `t` takes when it runs alone inside `allocate` and no compare-exchange fails
spuriously: at most `fuel` of them, until it returns. -/
def solo (c : Cfg) (t : Nat) : Nat → CState → Option CState
  | 0, s => if s.pc t = .idle then some s else none
  | fuel + 1, s =>
    let next (a : Action) : Option CState :=
      match step c s a with
      | some (.ok s') => solo c t fuel s'
      | _ => none
    match s.pc t with
    | .idle => some s
    | .aStart => next (.load t)
    | .aLoaded _ => next (.readNext t)
    | .aNext _ _ => next (.cas t false)
    | _ => none

theorem solo_from_start {c : Cfg} {s : CState} {t : Nat} (hp : s.pc t = .aStart)
    (hh : s.head = 0 ∨ c.isBlock s.head = true) (k : Nat) : ∃ s', solo c t (k + 3) s = some s' ∧ s'.pc t = .idle ∧
      (s.head ≠ 0 → s'.live = s.head :: s.live) ∧ (s.head = 0 → s'.live = s.live) := by
  by_cases h0 : s.head = 0
  · refine ⟨s.goto t .idle, ?_, by simp [CState.goto], fun h => absurd h0 h, fun _ => rfl⟩
    simp [solo, hp, step, h0, CState.goto]
  · have hb := hh.resolve_left h0
    refine ⟨{ ((s.goto t (.aLoaded s.head)).goto t (.aNext s.head (s.link s.head))).goto t .idle with
        head := s.link s.head, live := s.head :: s.live }, ?_, by simp [CState.goto], fun _ => rfl, fun h => absurd h h0⟩
    simp only [solo, hp, step, h0, if_false, CState.goto, if_true, hb]
    cases k <;> simp [solo]

/-- C26: from every state reached without races, an `allocate` that runs alone returns after at most five of its
own steps: it gets the block at the head of the list unless the list is empty, or the block it was already
about to take. -/
theorem C26_allocate_alone_finishes {c : Cfg} (hc : c.WF) {mem : Mem} {ls : List Label} {s : CState}
    (h : Run c RaceFree (cinit c mem) ls s) {t : Nat} (ht : Allocating (s.pc t)) :
    ∃ s', solo c t 5 s = some s' ∧ s'.pc t = .idle ∧
      (s.head ≠ 0 → s'.live = s.head :: s.live) ∧ (s.head = 0 → s'.live = s.live) := by
  obtain ⟨F, hF, -⟩ := h.inv hc
  have hhead : s.head = 0 ∨ c.isBlock s.head = true := by
    by_cases h0 : s.head = 0
    · exact .inl h0
    · obtain ⟨F', e⟩ := (hF.head hc).2 h0
      exact .inr (hF.blkF _ (by simp [e]))
  -- the compare-exchange step
  have hcas : ∀ (s : CState) (p n k : Nat), s.pc t = .aNext p n → c.isBlock p = true →
      (s.head = 0 ∨ c.isBlock s.head = true) →
      ∃ s', solo c t (k + 4) s = some s' ∧ s'.pc t = .idle ∧
        (s.head ≠ 0 → s'.live = s.head :: s.live) ∧ (s.head = 0 → s'.live = s.live) := by
    intro s p n k hp hb hh
    have hpos := Cfg.isBlock_pos hc hb
    by_cases hc1 : s.head = p
    · refine ⟨{ s.goto t .idle with head := n, live := p :: s.live }, ?_, by simp [CState.goto], ?_, ?_⟩
      · simp only [solo, hp, step, hc1]
        simp [CState.goto]
      · intro _; simp [hc1]
      · intro h0; omega
    · obtain ⟨s', h1, h2, h3, h4⟩ := solo_from_start (c := c) (s := s.goto t .aStart) (t := t)
        (by simp [CState.goto]) hh k
      refine ⟨s', ?_, h2, h3, h4⟩
      rw [solo, hp]
      simp only [step, hp, hc1, false_and, if_false]
      exact h1
  cases hp : s.pc t with
  | aStart => exact solo_from_start hp hhead 2
  | aLoaded p =>
    have hb := hF.ld t p hp
    obtain ⟨s', h1, h2, h3, h4⟩ := hcas (s.goto t (.aNext p (s.link p))) p (s.link p) 0 (by simp [CState.goto]) hb hhead
    refine ⟨s', ?_, h2, h3, h4⟩
    rw [solo, hp]
    simp only [step, hp, hb, if_true]
    exact h1
  | aNext p n => exact hcas s p n 1 hp (hF.nx t p n hp).1 hhead
  | _ => rw [hp] at ht; exact ht.elim

example : (solo cfg2 0 5 ((cinit cfg2 fun _ => 0).goto 0 .aStart)).map (·.live) = some [16] := by decide

end Uavcan.PoolConc
