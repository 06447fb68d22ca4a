import Verif.Model.PoolInit
import Verif.Lemmas.PoolConc

/-!
# Lemmas about the first use of a pool
-/

namespace Uavcan.PoolConc
open Pool Spec

/-- The same pool, as far as the code can tell: what is stored where no block begins does not count. -/
structure Agree (c : Cfg) (s s' : CState) : Prop where
  head : s.head = s'.head
  pc : s.pc = s'.pc
  live : s.live = s'.live
  link : ∀ a, c.isBlock a = true → s.link a = s'.link a

theorem Agree.labels {c : Cfg} {s s' : CState} (h : Agree c s s') (a : Action) : labels s a = labels s' a := by
  cases a <;> simp only [PoolConc.labels, h.head, h.pc]

theorem Agree.goto {c : Cfg} {s s' : CState} (h : Agree c s s') (t : Nat) (q : PC) : Agree c (s.goto t q) (s'.goto t q) :=
  ⟨h.head, by simp only [CState.goto, h.pc], h.live, h.link⟩

/-- A step of the one is a step of the other. -/
theorem Agree.step {c : Cfg} {s s' : CState} (h : Agree c s s') (a : Action) :
    (∀ p, step c s a = some (.ok p) → ∃ p', step c s' a = some (.ok p') ∧ Agree c p p') ∧
    (∀ u, step c s a = some (.ub u) → step c s' a = some (.ub u)) := by
  cases a with
  | callAlloc t =>
    simp only [PoolConc.step, ← h.pc]
    split
    · exact ⟨fun p hp => (by cases hp; exact ⟨_, rfl, h.goto _ _⟩), fun u hu => by cases hu⟩
    · exact ⟨fun p hp => (by cases hp), fun u hu => by cases hu⟩
  | load t =>
    simp only [PoolConc.step, ← h.pc, ← h.head]
    split
    · refine ⟨fun p hp => ⟨_, rfl, ?_⟩, fun u hu => by cases hu⟩
      cases hp
      split
      · exact h.goto _ _
      · exact h.goto _ _
    · exact ⟨fun p hp => (by cases hp), fun u hu => by cases hu⟩
  | readNext t =>
    simp only [PoolConc.step, ← h.pc]
    split
    · rename_i p hp
      by_cases hb : c.isBlock p = true
      · rw [if_pos hb, if_pos hb]
        exact ⟨fun q hq => (by cases hq; rw [h.link p hb]; exact ⟨_, rfl, h.goto _ _⟩), fun u hu => by cases hu⟩
      · rw [if_neg hb, if_neg hb]
        exact ⟨fun q hq => (by cases hq), fun u hu => hu⟩
    · exact ⟨fun p hp => (by cases hp), fun u hu => by cases hu⟩
  | cas t sp =>
    simp only [PoolConc.step, ← h.pc, ← h.head, ← h.live]
    split
    · refine ⟨fun p hp => ⟨_, rfl, ?_⟩, fun u hu => by cases hu⟩
      cases hp
      split
      · exact ⟨rfl, (h.goto _ _).pc, rfl, h.link⟩
      · exact h.goto _ _
    · exact ⟨fun p hp => (by cases hp), fun u hu => by cases hu⟩
  | callFree t b =>
    simp only [PoolConc.step, ← h.pc, ← h.live]
    split
    · by_cases hb : b ∈ s.live
      · rw [if_pos hb, if_pos hb]
        exact ⟨fun p hp => (by cases hp; exact ⟨_, rfl, ⟨h.head, (h.goto _ _).pc, rfl, h.link⟩⟩), fun u hu => by cases hu⟩
      · rw [if_neg hb, if_neg hb]
        exact ⟨fun p hp => (by cases hp), fun u hu => by cases hu⟩
    · exact ⟨fun p hp => (by cases hp), fun u hu => by cases hu⟩
  | exchange t =>
    simp only [PoolConc.step, ← h.pc, ← h.head]
    split
    · exact ⟨fun p hp => (by cases hp; exact ⟨_, rfl, ⟨rfl, (h.goto _ _).pc, h.live, h.link⟩⟩), fun u hu => by cases hu⟩
    · exact ⟨fun p hp => (by cases hp), fun u hu => by cases hu⟩
  | store t =>
    simp only [PoolConc.step, ← h.pc]
    split
    · rename_i b old hb'
      by_cases hb : c.isBlock b = true
      · rw [if_pos hb, if_pos hb]
        refine ⟨fun p hp => ⟨_, rfl, ?_⟩, fun u hu => by cases hu⟩
        cases hp
        refine ⟨h.head, (h.goto _ _).pc, h.live, fun a ha => ?_⟩
        simp only
        split
        · rfl
        · exact h.link a ha
      · rw [if_neg hb, if_neg hb]
        exact ⟨fun q hq => (by cases hq), fun u hu => hu⟩
    · exact ⟨fun p hp => (by cases hp), fun u hu => by cases hu⟩
  | clientWrite b v =>
    simp only [PoolConc.step, ← h.live]
    by_cases hb : b ∈ s.live
    · rw [if_pos hb, if_pos hb]
      refine ⟨fun p hp => ⟨_, rfl, ?_⟩, fun u hu => by cases hu⟩
      cases hp
      refine ⟨h.head, h.pc, rfl, fun a ha => ?_⟩
      simp only
      split
      · rfl
      · exact h.link a ha
    · rw [if_neg hb, if_neg hb]
      exact ⟨fun p hp => (by cases hp), fun u hu => by cases hu⟩

/-! ## The constructor -/

/-- The link of block `i` after construction. -/
def firstLink (c : Cfg) (i : Nat) : Nat := if i + 1 < c.numBlocks then c.blockAddr (i + 1) else 0

theorem chain_links {c : Cfg} {mem : Mem} : ∀ (m k p : Nat), Chain c mem p ((List.range' k m).map c.blockAddr) →
    ∀ i, k ≤ i → i < k + m → loadPtr c mem (c.blockAddr i) = if i + 1 < k + m then c.blockAddr (i + 1) else 0 := by
  intro m
  induction m with
  | zero => intro k p _ i h1 h2; omega
  | succ m ih =>
    intro k p h i h1 h2
    rw [List.range'_succ, List.map_cons] at h
    obtain ⟨-, h⟩ := h
    by_cases hi : i = k
    · subst hi
      cases m with
      | zero =>
        have : loadPtr c mem (c.blockAddr i) = 0 := h
        rw [this, if_neg (by omega)]
      | succ m =>
        rw [List.range'_succ, List.map_cons] at h
        rw [h.1, if_pos (by omega)]
    · have := ih (k + 1) _ h i (by omega) (by omega)
      rw [this]
      simp only [show k + 1 + m = k + (m + 1) by omega]

theorem cinit_link {c : Cfg} (hc : c.WF) (mem : Mem) (i : Nat) (hi : i < c.numBlocks) :
    (cinit c mem).link (c.blockAddr i) = firstLink c i := by
  have h := (Inv.init hc mem).chain
  rw [List.range_eq_range'] at h
  have := chain_links _ _ _ h i (Nat.zero_le _) (by omega)
  rw [Nat.zero_add] at this
  exact this

theorem blockAddr_inj {c : Cfg} (hc : c.WF) {i j : Nat} (h : c.blockAddr i = c.blockAddr j) : i = j := by
  by_cases hij : i = j
  · exact hij
  · have := Cfg.blockAddr_disjoint (c := c) hij
    have hs := hc.sizes.2.2
    rw [h] at this
    simp only [DisjointRanges] at this
    omega

/-- What the first `k` writes of the constructor have achieved. -/
structure Built (c : Cfg) (k : Nat) (p : CState) : Prop where
  idle : ∀ t, p.pc t = .idle
  live : p.live = []
  head : 2 ≤ k → p.head = c.base
  link : ∀ i, i < c.numBlocks → c.numBlocks + 2 ≤ i + k → p.link (c.blockAddr i) = firstLink c i

theorem Built.write {c : Cfg} (hc : c.WF) {k : Nat} {p : CState} (h : Built c k p) (hk : k < c.numBlocks + 2) :
    Built c (k + 1) (ctorWrite c p k) := by
  match k, hk with
  | 0, _ => exact ⟨h.idle, h.live, fun h => (by omega), fun i h1 h2 => by omega⟩
  | 1, _ => exact ⟨h.idle, h.live, fun _ => rfl, fun i h1 h2 => by omega⟩
  | j + 2, hk =>
    refine ⟨h.idle, h.live, fun _ => h.head (by omega), fun i h1 h2 => ?_⟩
    simp only [ctorWrite]
    by_cases hi : i = c.numBlocks - 1 - j
    · subst hi
      rw [if_pos rfl]
      unfold firstLink
      by_cases hj : j = 0
      · rw [if_pos hj, if_neg (by omega)]
      · rw [if_neg hj, if_pos (by omega)]
    · rw [if_neg fun h => hi (blockAddr_inj hc h)]
      exact h.link i h1 (by omega)

/-- After all writes the pool is that of `cinit`. -/
theorem Built.agree {c : Cfg} (hc : c.WF) {p : CState} (h : Built c (c.numBlocks + 2) p) (mem : Mem) :
    Agree c p (cinit c mem) := by
  refine ⟨h.head (by omega), funext h.idle, h.live, fun a ha => ?_⟩
  obtain ⟨i, hi, rfl⟩ := (Cfg.isBlock_iff hc a).1 ha
  rw [h.link i hi (by omega), cinit_link hc mem i hi]

/-! ## The invariant -/

/-- The application lets no two threads be in `getReference` before a first call has returned, memory.hpp:27–29. -/
def FirstAlone (s : LState) : Prop := s.guard = .set ∨ ∀ u, s.ref u = .out

/-- What holds at every moment. -/
def LInv (c : Cfg) (ts : Bool) (P : CState → Action → Prop) (mem : Mem) (ls : List Label) (s : LState) : Prop :=
  (s.ready = true ∧ s.guard = .set ∧ s.built = 1 ∧ (∀ t k, s.ref t ≠ .building k) ∧
    ∃ s', Run c P (cinit c mem) ls s' ∧ Agree c s.pool s') ∨
  (s.ready = false ∧ ls = [] ∧ (ts = false → ∀ t u, s.ref t ≠ .out → s.ref u ≠ .out → t = u) ∧
    ((s.guard = .unset ∧ s.built = 0 ∧ (∀ t k, s.ref t ≠ .building k) ∧ Built c 0 s.pool) ∨
     (s.guard = (if ts then .busy else .unset) ∧ s.built = 1 ∧ ∃ t k, s.ref t = .building k ∧ k ≤ c.numBlocks + 2 ∧
       (∀ u j, s.ref u = .building j → u = t) ∧ Built c k s.pool)))

theorem goto_ref (s : LState) (t u : Nat) (r : RefPC) : (s.goto t r).ref u = if u = t then r else s.ref u := rfl

theorem LInv.step {c : Cfg} (hc : c.WF) {ts : Bool} {P : CState → Action → Prop}
    (hP : ∀ s s' a, Agree c s s' → P s a → P s' a) {mem : Mem} {ls : List Label} {s s' : LState} {a : LAction}
    (h : LInv c ts P mem ls s) (hs : lstep c ts s a = some (.ok s'))
    (hd : ts = true ∨ ∀ t, a = .callRef t → FirstAlone s) (hp : ∀ x, a = .pool x → P s.pool x) :
    LInv c ts P mem (ls ++ llabels s a) s' := by
  cases a with
  | callRef t =>
    simp only [lstep] at hs
    split at hs
    · rename_i hc1
      cases hs
      simp only [llabels, List.append_nil]
      have hnb : ∀ u k, (s.goto t .entered).ref u = .building k → s.ref u = .building k := by
        intro u k hu
        rw [goto_ref] at hu
        split at hu
        · cases hu
        · exact hu
      rcases h with ⟨h1, h2, h3, h4, h5⟩ | ⟨h1, h2, h3, h4⟩
      · exact .inl ⟨h1, h2, h3, fun u k hu => h4 u k (hnb u k hu), h5⟩
      · refine .inr ⟨h1, h2, ?_, ?_⟩
        · intro hts u v hu hv
          rcases hd with hd | hd
          · rw [hts] at hd; cases hd
          · rcases hd t rfl with hd | hd
            · rcases h4 with h4 | h4
              · rw [h4.1] at hd; cases hd
              · rw [h4.1, hts] at hd; cases hd
            · rw [goto_ref] at hu hv
              split at hu <;> split at hv
              · rename_i a b; rw [a, b]
              · exact absurd (hd v) hv
              · exact absurd (hd u) hu
              · exact absurd (hd u) hu
        · rcases h4 with ⟨g1, g2, g3, g4⟩ | ⟨g1, g2, v, k, g3, g4, g5, g6⟩
          · exact .inl ⟨g1, g2, fun u k hu => g3 u k (hnb u k hu), g4⟩
          · refine .inr ⟨g1, g2, v, k, ?_, g4, fun u j hu => g5 u j (hnb u j hu), g6⟩
            rw [goto_ref, if_neg, g3]
            intro hv
            rw [hv, hc1.1] at g3; cases g3
    · cases hs
  | check t =>
    simp only [lstep] at hs
    split at hs
    · -- the guard is set
      rename_i hr hg
      cases hs
      simp only [llabels, List.append_nil]
      rcases h with ⟨h1, h2, h3, h4, h5⟩ | ⟨-, -, -, h4⟩
      · refine .inl ⟨rfl, h2, h3, ?_, h5⟩
        intro u k hu
        simp only [goto_ref] at hu
        split at hu
        · cases hu
        · exact h4 u k hu
      · rcases h4 with h4 | h4
        · rw [h4.1] at hg; cases hg
        · rw [h4.1] at hg; split at hg <;> cases hg
    · -- this thread constructs
      rename_i hr hg
      cases hs
      simp only [llabels, List.append_nil]
      rcases h with ⟨-, h2, -⟩ | ⟨h1, h2, h3, h4⟩
      · rw [h2] at hg; cases hg
      · rcases h4 with ⟨g1, g2, g3, g4⟩ | ⟨g1, g2, v, k, g3, g4, g5, g6⟩
        · refine .inr ⟨h1, h2, ?_, .inr ⟨rfl, by simp only; omega, t, 0, ?_, by omega, ?_, g4⟩⟩
          · intro hts u v hu hv
            simp only [goto_ref] at hu hv
            have e : ∀ w, (if w = t then RefPC.building 0 else s.ref w) ≠ .out → w = t := by
              intro w hw
              split at hw
              · assumption
              · exact h3 hts w t hw (by rw [hr]; exact fun h => by cases h)
            rw [e u hu, e v hv]
          · simp only [goto_ref, if_true]
          · intro u j hu
            simp only [goto_ref] at hu
            split at hu
            · assumption
            · exact absurd hu (g3 u j)
        · cases ts with
          | true => rw [g1] at hg; cases hg
          | false =>
            have := h3 rfl t v (by rw [hr]; exact fun h => by cases h) (by rw [g3]; exact fun h => by cases h)
            rw [this, g3] at hr; cases hr
    · cases hs
  | build t =>
    simp only [lstep] at hs
    split at hs
    · rename_i k hk
      simp only [llabels, List.append_nil]
      rcases h with ⟨-, -, -, h4, -⟩ | ⟨h1, h2, h3, h4⟩
      · exact absurd hk (h4 t k)
      · rcases h4 with ⟨-, -, g3, -⟩ | ⟨g1, g2, v, j, g3, g4, g5, g6⟩
        · exact absurd hk (g3 t k)
        · have hv := g5 t k hk
          subst hv
          rw [hk] at g3
          injection g3 with g3
          subst g3
          by_cases hlt : k < c.numBlocks + 2
          · rw [if_pos hlt] at hs
            cases hs
            refine .inr ⟨h1, h2, ?_, .inr ⟨g1, g2, t, k + 1, ?_, by omega, ?_, g6.write hc hlt⟩⟩
            · intro hts u v hu hv
              simp only [goto_ref] at hu hv
              have e : ∀ w, (if w = t then RefPC.building (k + 1) else s.ref w) ≠ .out → w = t := by
                intro w hw
                split at hw
                · assumption
                · exact h3 hts w t hw (by rw [hk]; exact fun h => by cases h)
              rw [e u hu, e v hv]
            · simp only [goto_ref, if_true]
            · intro u j hu
              simp only [goto_ref] at hu
              split at hu
              · assumption
              · exact g5 u j hu
          · rw [if_neg hlt] at hs
            cases hs
            have hk' : k = c.numBlocks + 2 := by omega
            subst hk'
            refine .inl ⟨rfl, rfl, g2, ?_, cinit c mem, ?_, g6.agree hc mem⟩
            · intro u j hu
              simp only [goto_ref] at hu
              split at hu
              · cases hu
              · rename_i hne
                exact hne (g5 u j hu)
            · rw [h2]; exact .nil _
    · cases hs
  | pool x =>
    simp only [lstep] at hs
    split at hs
    · rename_i hr
      rcases h with ⟨h1, h2, h3, h4, s1, h5, h6⟩ | ⟨h1, -⟩
      · split at hs
        · cases hs
        · cases hs
        · rename_i p hp'
          cases hs
          obtain ⟨p', k1, k2⟩ := (h6.step x).1 p hp'
          refine .inl ⟨h1, h2, h3, h4, p', ?_, k2⟩
          simp only [llabels]
          rw [h6.labels x]
          exact .snoc h5 (hP _ _ _ h6 (hp x rfl)) k1
      · rw [h1] at hr; cases hr.1
    · cases hs

theorem LInv.init (c : Cfg) (ts : Bool) (P : CState → Action → Prop) (mem : Mem) : LInv c ts P mem [] linit :=
  .inr ⟨rfl, rfl, fun _ t _ h => absurd rfl h, .inl ⟨rfl, rfl, fun _ _ h => (by cases h),
    ⟨fun _ => rfl, rfl, fun h => (by omega), fun i h1 h2 => by omega⟩⟩⟩

theorem LRun.inv {c : Cfg} (hc : c.WF) {ts : Bool} {P : CState → Action → Prop} {Q : LState → LAction → Prop}
    (hP : ∀ s s' a, Agree c s s' → P s a → P s' a) (hQ : ts = true ∨ ∀ s t, Q s (.callRef t) → FirstAlone s)
    (hQP : ∀ s a, Q s (.pool a) → P s.pool a) (mem : Mem) {s0 : LState} {ls : List Label} {s : LState}
    (h0 : s0 = linit) (h : LRun c ts Q s0 ls s) : LInv c ts P mem ls s := by
  induction h with
  | nil => rw [h0]; exact LInv.init c ts P mem
  | snoc h1 h2 h3 ih =>
    refine LInv.step hc hP ih h3 ?_ ?_
    · rcases hQ with hQ | hQ
      · exact .inl hQ
      · exact .inr fun t ht => hQ _ t (ht ▸ h2)
    · intro x hx
      exact hQP _ _ (hx ▸ h2)

end Uavcan.PoolConc
