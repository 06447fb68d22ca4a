import Verif.Lemmas.PoolInit
import Verif.Props.PoolConc

/-!
# C106: the pool is constructed once, before its first use

`ts` says whether statics are thread-safe. If they are not, the application has to keep threads apart until one has got its
reference (`FirstAlone`; memory.hpp:27–29).
-/

namespace Uavcan.PoolConc
open Pool

/-- C106: the pool is constructed at most once, and once before any reference to it exists; the constructor is not running then, and
never will again. Before, nothing is allocated. -/
theorem C106_once {c : Cfg} (hc : c.WF) {ts : Bool} {Q : LState → LAction → Prop}
    (hQ : ts = true ∨ ∀ s t, Q s (.callRef t) → FirstAlone s) {ls : List Label} {s : LState}
    (h : LRun c ts Q linit ls s) :
    s.built ≤ 1 ∧ (s.ready = true → s.built = 1 ∧ ∀ t k, s.ref t ≠ .building k) ∧
    (s.ready = false → ls = [] ∧ s.pool.live = [] ∧ ∀ t, s.pool.pc t = .idle) := by
  rcases LRun.inv hc (P := Any) (fun _ _ _ _ _ => trivial) hQ (fun _ _ _ => trivial) (fun _ => 0) rfl h with
    ⟨h1, h2, h3, h4, -⟩ | ⟨h1, h2, -, h4⟩
  · exact ⟨by omega, fun _ => ⟨h3, h4⟩, fun h => by rw [h1] at h; cases h⟩
  · refine ⟨?_, fun h => (by rw [h1] at h; cases h), fun _ => ?_⟩
    · rcases h4 with h4 | h4
      · omega
      · omega
    · rcases h4 with ⟨-, -, -, h4⟩ | ⟨-, -, _, _, -, -, -, h4⟩
      · exact ⟨h2, h4.live, h4.idle⟩
      · exact ⟨h2, h4.live, h4.idle⟩

/-- C106: once there is a reference, everything is as if the pool had been there from the start: what threads did and saw (`ls`) they
could have done and seen with a pool constructed beforehand (whatever memory contained before that), under the same conditions `P`
on the steps; and so it goes on, up to undefined behaviour. -/
theorem C106_refines {c : Cfg} (hc : c.WF) {ts : Bool} {P : CState → Action → Prop} {Q : LState → LAction → Prop}
    (hP : ∀ s s' a, Agree c s s' → P s a → P s' a) (hQ : ts = true ∨ ∀ s t, Q s (.callRef t) → FirstAlone s)
    (hQP : ∀ s a, Q s (.pool a) → P s.pool a) (mem : Mem) {ls : List Label} {s : LState}
    (h : LRun c ts Q linit ls s) (hr : s.ready = true) :
    ∃ s', Run c P (cinit c mem) ls s' ∧ Agree c s.pool s' ∧
      ∀ a u, lstep c ts s (.pool a) = some (.ub u) → step c s' a = some (.ub u) := by
  rcases LRun.inv hc hP hQ hQP mem rfl h with ⟨-, -, -, -, s', h5, h6⟩ | ⟨h1, -⟩
  · refine ⟨s', h5, h6, fun a u hu => (h6.step a).2 u ?_⟩
    simp only [lstep] at hu
    split at hu
    · split at hu
      · cases hu
      · rename_i h; rw [h]; cases hu; rfl
      · cases hu
    · cases hu
  · rw [h1] at hr; cases hr

/-- C106: in particular the guarantees of C25 hold from the first use on, under the same conditions. -/
theorem C106_safe {c : Cfg} (hc : c.WF) {ts : Bool} {Q : LState → LAction → Prop}
    (hQ : ts = true ∨ ∀ s t, Q s (.callRef t) → FirstAlone s) (hQP : ∀ s a, Q s (.pool a) → RaceFree s.pool a)
    {ls : List Label} {s : LState} (h : LRun c ts Q linit ls s) :
    s.pool.live.Nodup ∧ (∀ b ∈ s.pool.live, c.isBlock b = true) ∧ ∀ a u, lstep c ts s a ≠ some (.ub u) := by
  have hnot : ∀ a u, (∀ x, a ≠ .pool x) → lstep c ts s a ≠ some (.ub u) := by
    intro a u ha hu
    cases a with
    | callRef t => simp only [lstep] at hu; split at hu <;> cases hu
    | check t => simp only [lstep] at hu; split at hu <;> cases hu
    | build t => simp only [lstep] at hu; split at hu <;> cases hu
    | pool x => exact ha x rfl
  by_cases hr : s.ready = true
  · have hP : ∀ s s' a, Agree c s s' → RaceFree s a → RaceFree s' a := by
      intro s s' a ha hs
      cases a <;> simp only [RaceFree, ← ha.pc] at hs ⊢ <;> exact hs
    obtain ⟨s', h1, h2, h3⟩ := C106_refines hc hP hQ hQP (fun _ => 0) h hr
    have hsafe := C25_race_free_safe_partial hc h1
    refine ⟨h2.live ▸ hsafe.noDouble, fun b hb => hsafe.inPool b (h2.live ▸ hb), fun a u hu => ?_⟩
    cases a with
    | pool x => exact hsafe.noWild x u (h3 x u hu)
    | callRef t => exact hnot _ u (fun x h => by cases h) hu
    | check t => exact hnot _ u (fun x h => by cases h) hu
    | build t => exact hnot _ u (fun x h => by cases h) hu
  · have hr : s.ready = false := by simpa using hr
    obtain ⟨-, -, h3⟩ := C106_once hc hQ h
    obtain ⟨-, hl, -⟩ := h3 hr
    refine ⟨by rw [hl]; exact List.nodup_nil, fun b hb => (by rw [hl] at hb; cases hb), fun a u hu => ?_⟩
    cases a with
    | pool x =>
      simp only [lstep, hr] at hu
      rw [if_neg (by simp)] at hu
      cases hu
    | callRef t => exact hnot _ u (fun x h => by cases h) hu
    | check t => exact hnot _ u (fun x h => by cases h) hu
    | build t => exact hnot _ u (fun x h => by cases h) hu

/-- The steps of one thread after the other. -/
def lrunActions (c : Cfg) (ts : Bool) (s : LState) : List LAction → Option LState
  | [] => some s
  | a :: as =>
    match lstep c ts s a with
    | some (.ok s') => lrunActions c ts s' as
    | _ => none

theorem lrunActions_append (c : Cfg) (ts : Bool) (s : LState) (as bs : List LAction) :
    lrunActions c ts s (as ++ bs) = (lrunActions c ts s as).bind fun s' => lrunActions c ts s' bs := by
  induction as generalizing s with
  | nil => rfl
  | cons a as ih =>
    simp only [List.cons_append, lrunActions]
    split
    · exact ih _
    · rfl

/-- A thread in the constructor can finish. -/
theorem build_finishes (c : Cfg) (ts : Bool) (t : Nat) : ∀ m k (s : LState), s.ref t = .building k → k + m = c.numBlocks + 2 →
    ∃ s', lrunActions c ts s (List.replicate (m + 1) (.build t)) = some s' ∧ s'.guard = .set ∧ s'.ref t = .out ∧
      ∀ u, u ≠ t → s'.ref u = s.ref u := by
  intro m
  induction m with
  | zero =>
    intro k s hk hm
    refine ⟨{ s.goto t .out with guard := .set, ready := true }, ?_, rfl, ?_, fun u hu => ?_⟩
    · simp only [List.replicate, lrunActions, lstep, hk]
      rw [if_neg (by omega)]
    · simp only [goto_ref, if_true]
    · simp only [goto_ref, if_neg hu]
  | succ m ih =>
    intro k s hk hm
    obtain ⟨s', h1, h2, h3, h4⟩ := ih (k + 1) { s.goto t (.building (k + 1)) with pool := ctorWrite c s.pool k }
      (by simp only [goto_ref, if_true]) (by omega)
    refine ⟨s', ?_, h2, h3, fun u hu => ?_⟩
    · rw [List.replicate_succ]
      simp only [lrunActions, lstep, hk]
      rw [if_pos (by omega)]
      exact h1
    · rw [h4 u hu]
      simp only [goto_ref, if_neg hu]

/-- C106: nobody waits for ever: at any time every thread in `getReference` can return, if only it and the thread that constructs
go on. -/
theorem C106_returns {c : Cfg} (hc : c.WF) {ts : Bool} {Q : LState → LAction → Prop}
    (hQ : ts = true ∨ ∀ s t, Q s (.callRef t) → FirstAlone s) {ls : List Label} {s : LState}
    (h : LRun c ts Q linit ls s) (t : Nat) (ht : s.ref t ≠ .out) :
    ∃ u as s', (∀ a ∈ as, a = .check t ∨ a = .build u) ∧ lrunActions c ts s as = some s' ∧ s'.ref t = .out := by
  have hset : ∀ s : LState, s.guard = .set → s.ref t = .entered → ∃ s', lrunActions c ts s [.check t] = some s' ∧ s'.ref t = .out := by
    intro s h1 h2
    refine ⟨{ s.goto t .out with ready := true }, ?_, by simp only [goto_ref, if_true]⟩
    simp only [lrunActions, lstep, h1, h2]
  rcases LRun.inv hc (P := Any) (fun _ _ _ _ _ => trivial) hQ (fun _ _ _ => trivial) (fun _ => 0) rfl h with
    ⟨-, h2, -, h4, -⟩ | ⟨-, -, -, h4⟩
  · have hte : s.ref t = .entered := by
      cases hx : s.ref t with
      | out => exact absurd hx ht
      | entered => rfl
      | building k => exact absurd hx (h4 t k)
    obtain ⟨s', k1, k2⟩ := hset s h2 hte
    exact ⟨t, _, s', fun a ha => .inl (List.mem_singleton.1 ha), k1, k2⟩
  · rcases h4 with ⟨g1, -, g3, -⟩ | ⟨-, -, u, k, g3, g4, g5, -⟩
    · have hte : s.ref t = .entered := by
        cases hx : s.ref t with
        | out => exact absurd hx ht
        | entered => rfl
        | building k => exact absurd hx (g3 t k)
      obtain ⟨s', k1, k2, k3, k4⟩ := build_finishes c ts t (c.numBlocks + 2) 0
        { s.goto t (.building 0) with guard := if ts then .busy else .unset, built := s.built + 1 }
        (by simp only [goto_ref, if_true]) (by omega)
      refine ⟨t, .check t :: List.replicate (c.numBlocks + 2 + 1) (.build t), s', ?_, ?_, k3⟩
      · intro a ha
        rcases List.mem_cons.1 ha with rfl | ha
        · exact .inl rfl
        · exact .inr (List.eq_of_mem_replicate ha)
      · simp only [lrunActions, lstep, g1, hte]
        exact k1
    · obtain ⟨s1, k1, k2, k3, k4⟩ := build_finishes c ts u (c.numBlocks + 2 - k) k s g3 (by omega)
      by_cases htu : t = u
      · subst htu
        exact ⟨t, _, s1, fun a ha => .inr (List.eq_of_mem_replicate ha), k1, k3⟩
      · have hte : s.ref t = .entered := by
          cases hx : s.ref t with
          | out => exact absurd hx ht
          | entered => rfl
          | building k => exact absurd (g5 t k hx) htu
        obtain ⟨s', j1, j2⟩ := hset s1 k2 (by rw [k4 t htu]; exact hte)
        refine ⟨u, List.replicate (c.numBlocks + 2 - k + 1) (.build u) ++ [.check t], s', ?_, ?_, j2⟩
        · intro a ha
          rcases List.mem_append.1 ha with ha | ha
          · exact .inr (List.eq_of_mem_replicate ha)
          · exact .inl (List.mem_singleton.1 ha)
        · rw [lrunActions_append, k1]
          exact j1

/-- Reachable by any steps. -/
theorem lrunActions_run {c : Cfg} {ts : Bool} : ∀ (as : List LAction) (s0 s s' : LState) (ls : List Label),
    LRun c ts (fun _ _ => True) s0 ls s → lrunActions c ts s as = some s' → ∃ ls', LRun c ts (fun _ _ => True) s0 ls' s' := by
  intro as
  induction as with
  | nil => intro s0 s s' ls h h'; cases h'; exact ⟨ls, h⟩
  | cons a as ih =>
    intro s0 s s' ls h h'
    simp only [lrunActions] at h'
    split at h'
    · rename_i s1 h1
      exact ih s0 s1 s' _ (.snoc h trivial h1) h'
    · cases h'

/-- Two threads get their reference at the same moment; both construct, and each allocates when it is done, one after the other. -/
def twiceTrace : List LAction :=
  [.callRef 0, .check 0, .callRef 1, .check 1] ++ List.replicate 5 (.build 0) ++ (allocSteps 0).map .pool ++
    List.replicate 5 (.build 1) ++ (allocSteps 1).map .pool

/-- C106: without thread-safe statics the documented condition is needed: two threads can be given the same block, although
neither their allocations nor anything else in the pool overlap. -/
theorem C106_condition_needed : ∃ ls s, LRun cfg2 false (fun _ _ => True) linit ls s ∧ s.pool.live = [16, 16] ∧ s.built = 2 := by
  have h : (lrunActions cfg2 false linit twiceTrace).map (fun s => (s.pool.live, s.built)) = some ([16, 16], 2) := by decide
  obtain ⟨s, h1, h2⟩ := Option.map_eq_some_iff.1 h
  obtain ⟨ls, hr⟩ := lrunActions_run twiceTrace linit linit s [] (.nil _) h1
  injection h2 with h2 h3
  exact ⟨ls, s, hr, h2, h3⟩

/-- With thread-safe statics the same threads have to wait for each other: the second does not get past the guard. -/
example : (lrunActions cfg2 true linit twiceTrace).isNone = true ∧
    (lrunActions cfg2 true linit ([.callRef 0, .check 0, .callRef 1] ++ List.replicate 5 (.build 0) ++ [.check 1] ++
      (allocSteps 0).map .pool ++ (allocSteps 1).map .pool)).map (fun s => (s.pool.live, s.built)) = some ([24, 16], 1) := by decide

end Uavcan.PoolConc
