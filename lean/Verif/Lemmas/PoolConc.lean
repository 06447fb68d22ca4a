import Verif.Model.PoolConc
import Verif.Lemmas.Pool

/-! Invariant of the concurrent pool. -/

namespace Uavcan.PoolConc
open Pool Spec

/-- The race-freedom conditions: no link is read while its `deallocate` is between the two halves of 175, and
no block is put back while some `allocate` has already read its link and not yet tried its compare-exchange. -/
def RaceFree (s : CState) : Action → Prop
  | .readNext t => ∀ p, s.pc t = .aLoaded p → ∀ t' old, s.pc t' ≠ .dLink p old
  | .exchange t => ∀ b, s.pc t = .dStart b → ∀ t' n, s.pc t' ≠ .aNext b n
  | _ => True

/-- The logical link of a free block: what its pending `deallocate` is about to store, else what is stored. -/
def LNext (s : CState) (b v : Nat) : Prop :=
  (∃ t, s.pc t = .dLink b v) ∨ ((∀ t o, s.pc t ≠ .dLink b o) ∧ s.link b = v)

/-- The free list, along logical links. -/
def CChain (s : CState) : Nat → List Nat → Prop
  | p, [] => p = 0
  | p, a :: l => p = a ∧ ∃ v, LNext s a v ∧ CChain s v l

theorem LNext.congr {s s' : CState} {b v : Nat} (h : LNext s b v)
    (hpc : ∀ t o, s'.pc t = .dLink b o ↔ s.pc t = .dLink b o) (hl : s'.link b = s.link b) : LNext s' b v := by
  rcases h with ⟨t, ht⟩ | ⟨h1, h2⟩
  · exact .inl ⟨t, (hpc t v).2 ht⟩
  · exact .inr ⟨fun t o h => h1 t o ((hpc t o).1 h), hl.trans h2⟩

theorem CChain.congr {s s' : CState} {p : Nat} {l : List Nat} (h : CChain s p l)
    (hn : ∀ a ∈ l, ∀ v, LNext s a v → LNext s' a v) : CChain s' p l := by
  induction l generalizing p with
  | nil => exact h
  | cons a l ih =>
    obtain ⟨h1, v, h2, h3⟩ := h
    exact ⟨h1, v, hn a (by simp) v h2, ih h3 (fun b hb => hn b (by simp [hb]))⟩

/-- The invariant. `F` is the abstract stack. -/
structure CInv (c : Cfg) (s : CState) (F : List Nat) : Prop where
  chain : CChain s s.head F
  nodupF : F.Nodup
  nodupLive : s.live.Nodup
  disj : ∀ b, b ∈ F → b ∉ s.live
  blkF : ∀ b, b ∈ F → c.isBlock b = true
  blkLive : ∀ b, b ∈ s.live → c.isBlock b = true
  cover : ∀ b, c.isBlock b = true → b ∈ F ∨ b ∈ s.live ∨ ∃ t, s.pc t = .dStart b
  ds : ∀ t b, s.pc t = .dStart b → c.isBlock b = true ∧ b ∉ F ∧ b ∉ s.live
  dsUniq : ∀ t t' b, s.pc t = .dStart b → s.pc t' = .dStart b → t = t'
  dl : ∀ t b o, s.pc t = .dLink b o → b ∈ F
  dlUniq : ∀ t t' b o o', s.pc t = .dLink b o → s.pc t' = .dLink b o' → t = t'
  ld : ∀ t p, s.pc t = .aLoaded p → c.isBlock p = true
  nx : ∀ t p n, s.pc t = .aNext p n → c.isBlock p = true ∧ (p ∈ F → LNext s p n)
  nodl : ∀ t t' b o n, s.pc t = .dLink b o → s.pc t' ≠ .aNext b n

theorem CInv.lnext_unique {c : Cfg} {s : CState} {F : List Nat} (h : CInv c s F) {b v w : Nat}
    (hv : LNext s b v) (hw : LNext s b w) : v = w := by
  rcases hv with ⟨t, ht⟩ | ⟨h1, h2⟩ <;> rcases hw with ⟨t', ht'⟩ | ⟨h1', h2'⟩
  · have := h.dlUniq t t' b v w ht ht'
    subst this
    rw [ht] at ht'
    injection ht'
  · exact absurd ht (h1' t v)
  · exact absurd ht' (h1 t' w)
  · rw [← h2, h2']

theorem chain_init {c : Cfg} {mem : Mem} {p : Nat} {l : List Nat} {s : CState}
    (hs : ∀ a, s.link a = loadPtr c mem a) (hpc : ∀ t, s.pc t = .idle) (h : Chain c mem p l) : CChain s p l := by
  induction l generalizing p with
  | nil => exact h
  | cons a l ih =>
    obtain ⟨h1, h2⟩ := h
    refine ⟨h1, _, .inr ⟨fun t o => ?_, hs a⟩, ih h2⟩
    rw [hpc]; exact fun h => nomatch h

theorem CInv.init {c : Cfg} (hc : c.WF) (mem : Mem) :
    CInv c (cinit c mem) ((List.range c.numBlocks).map c.blockAddr) := by
  have h := Inv.init hc mem
  have hidle : ∀ t, (cinit c mem).pc t = .idle := fun _ => rfl
  have hall := h.all
  simp only [List.append_nil] at hall
  constructor
  · exact chain_init (fun _ => rfl) hidle h.chain
  · simpa using h.nodup
  · exact List.nodup_nil
  · intro b _ hb; cases hb
  · exact fun b hb => (hall b).1 hb
  · intro b hb; cases hb
  · exact fun b hb => .inl ((hall b).2 hb)
  all_goals (intros; rename_i h; simp [hidle] at h)

/-- Steps that move a thread between points other than the two of `deallocate`, and change nothing else. -/
theorem CInv.goto {c : Cfg} {s : CState} {F : List Nat} (h : CInv c s F) {t : Nat} {q : PC}
    (h0 : ∀ b o, s.pc t ≠ .dLink b o) (h0' : ∀ b, s.pc t ≠ .dStart b)
    (h1 : ∀ b o, q ≠ .dLink b o) (h1' : ∀ b, q ≠ .dStart b)
    (hld : ∀ p, q = .aLoaded p → c.isBlock p = true)
    (hnx : ∀ p n, q = .aNext p n → c.isBlock p = true ∧ (p ∈ F → LNext s p n) ∧ ∀ t' o, s.pc t' ≠ .dLink p o) :
    CInv c (s.goto t q) F := by
  have hiff : ∀ b i o, (s.goto t q).pc i = .dLink b o ↔ s.pc i = .dLink b o := by
    intro b i o; simp only [CState.goto]; split
    · rename_i e; subst e; exact ⟨fun h => absurd h (h1 b o), fun h => absurd h (h0 b o)⟩
    · exact Iff.rfl
  have hiff' : ∀ b i, (s.goto t q).pc i = .dStart b ↔ s.pc i = .dStart b := by
    intro b i; simp only [CState.goto]; split
    · rename_i e; subst e; exact ⟨fun h => absurd h (h1' b), fun h => absurd h (h0' b)⟩
    · exact Iff.rfl
  have hln : ∀ b v, LNext s b v → LNext (s.goto t q) b v := fun b v hv => hv.congr (hiff b) rfl
  constructor
  · exact h.chain.congr (fun a _ v => hln a v)
  · exact h.nodupF
  · exact h.nodupLive
  · exact h.disj
  · exact h.blkF
  · exact h.blkLive
  · intro b hb
    rcases h.cover b hb with h | h | ⟨i, hi⟩
    · exact .inl h
    · exact .inr (.inl h)
    · exact .inr (.inr ⟨i, (hiff' b i).2 hi⟩)
  · exact fun i b hi => h.ds i b ((hiff' b i).1 hi)
  · exact fun i j b hi hj => h.dsUniq i j b ((hiff' b i).1 hi) ((hiff' b j).1 hj)
  · exact fun i b o hi => h.dl i b o ((hiff b i o).1 hi)
  · exact fun i j b o o' hi hj => h.dlUniq i j b o o' ((hiff b i o).1 hi) ((hiff b j o').1 hj)
  · intro i p hi
    simp only [CState.goto] at hi
    split at hi
    · exact hld p hi
    · exact h.ld i p hi
  · intro i p n hi
    simp only [CState.goto] at hi
    split at hi
    · exact ⟨(hnx p n hi).1, fun hp => hln p n ((hnx p n hi).2.1 hp)⟩
    · exact ⟨(h.nx i p n hi).1, fun hp => hln p n ((h.nx i p n hi).2 hp)⟩
  · intro i j b o n hi hj
    have hi' := (hiff b i o).1 hi
    simp only [CState.goto] at hj
    split at hj
    · exact (hnx b n hj).2.2 i o hi'
    · exact h.nodl i j b o n hi' hj

/-- Effect of a step on the abstract stack. -/
def absStep (s : CState) (F : List Nat) : Action → List Nat
  | .cas t spurious =>
    match s.pc t with
    | .aNext p _ => if s.head = p ∧ spurious = false then F.tail else F
    | _ => F
  | .exchange t =>
    match s.pc t with
    | .dStart b => b :: F
    | _ => F
  | _ => F

theorem CInv.head {c : Cfg} (hc : c.WF) {s : CState} {F : List Nat} (h : CInv c s F) :
    (s.head = 0 ↔ F = []) ∧ (s.head ≠ 0 → ∃ F', F = s.head :: F') := by
  have hch := h.chain
  cases hF : F with
  | nil =>
    rw [hF] at hch
    have : s.head = 0 := hch
    simp [this]
  | cons a l =>
    rw [hF] at hch
    have e : s.head = a := hch.1
    have hb := Cfg.isBlock_pos hc (h.blkF a (by simp [hF]))
    refine ⟨⟨fun h0 => by omega, fun h0 => by simp at h0⟩, fun _ => ⟨l, by rw [e]⟩⟩

/-- Every race-free step keeps the invariant; in particular it is defined. -/
theorem CInv.step {c : Cfg} (hc : c.WF) {s : CState} {F : List Nat} (h : CInv c s F) {a : Action}
    (hr : RaceFree s a) {o : Outcome CState} (hs : PoolConc.step c s a = some o) :
    ∃ s', o = .ok s' ∧ CInv c s' (absStep s F a) := by
  cases a with
  | callAlloc t =>
    simp only [PoolConc.step] at hs
    cases hp : s.pc t <;> rw [hp] at hs <;> cases hs
    exact ⟨_, rfl, h.goto (by simp [hp]) (by simp [hp]) (by simp) (by simp) (by simp) (by simp)⟩
  | load t =>
    simp only [PoolConc.step] at hs
    cases hp : s.pc t <;> rw [hp] at hs <;> cases hs
    refine ⟨_, rfl, ?_⟩
    split
    · exact h.goto (by simp [hp]) (by simp [hp]) (by simp) (by simp) (by simp) (by simp)
    · rename_i h0
      obtain ⟨F', hF'⟩ := (h.head hc).2 h0
      refine h.goto (by simp [hp]) (by simp [hp]) (by simp) (by simp) ?_ (by simp)
      intro p e
      injection e with e
      subst e
      exact h.blkF _ (by simp [hF'])
  | readNext t =>
    simp only [PoolConc.step] at hs
    cases hp : s.pc t <;> rw [hp] at hs <;> cases hs
    rename_i p
    have hb := h.ld t p hp
    rw [if_pos hb]
    have hno := hr p hp
    refine ⟨_, rfl, h.goto (by simp [hp]) (by simp [hp]) (by simp) (by simp) (by simp) ?_⟩
    intro p' n e
    injection e with e1 e2
    subst e1; subst e2
    exact ⟨hb, fun _ => .inr ⟨hno, rfl⟩, hno⟩
  | cas t spurious =>
    simp only [PoolConc.step] at hs
    cases hp : s.pc t <;> rw [hp] at hs <;> cases hs
    rename_i p n
    refine ⟨_, rfl, ?_⟩
    simp only [absStep, hp]
    split
    · rename_i hcas
      obtain ⟨hhead, -⟩ := hcas
      have hb := (h.nx t p n hp).1
      have hpos := Cfg.isBlock_pos hc hb
      obtain ⟨F', hF'⟩ := (h.head hc).2 (by omega)
      rw [hhead] at hF'
      have hpF : p ∈ F := by simp [hF']
      have hn := (h.nx t p n hp).2 hpF
      have hbase : CInv c (s.goto t .idle) F :=
        h.goto (by simp [hp]) (by simp [hp]) (by simp) (by simp) (by simp) (by simp)
      have hchain := hbase.chain
      rw [hF'] at hchain
      obtain ⟨-, v, hv, hrest⟩ := hchain
      have hn' : LNext (s.goto t .idle) p n := by
        refine hn.congr ?_ rfl
        intro i o
        simp only [CState.goto]
        split
        · rename_i e; subst e; simp [hp]
        · exact Iff.rfl
      have hvn := hbase.lnext_unique hv hn'
      subst hvn
      have hnd := h.nodupF
      rw [hF'] at hnd
      have hpF' : p ∉ F' := (List.nodup_cons.1 hnd).1
      have hplive : p ∉ s.live := h.disj p hpF
      have hnods : ∀ i, s.pc i ≠ .dStart p := fun i hi => (h.ds i p hi).2.1 hpF
      have hnodl : ∀ i o, s.pc i ≠ .dLink p o := fun i o hi => h.nodl i t p o v hi hp
      have hsub : ∀ b, b ∈ F' → b ∈ F := fun b hb => by simp [hF', hb]
      have hmem : ∀ b, b ∈ F → b = p ∨ b ∈ F' := fun b hb => by simpa [hF'] using hb
      rw [hF']
      show CInv c { s.goto t .idle with head := v, live := p :: s.live } F'
      constructor
      · exact hrest.congr (fun a _ w hw => hw.congr (fun _ _ => Iff.rfl) rfl)
      · exact (List.nodup_cons.1 hnd).2
      · exact List.nodup_cons.2 ⟨hplive, h.nodupLive⟩
      · intro b hbF hbl
        rcases List.mem_cons.1 hbl with rfl | hbl
        · exact hpF' hbF
        · exact h.disj b (hsub b hbF) hbl
      · exact fun b hbF => h.blkF b (hsub b hbF)
      · intro b hbl
        rcases List.mem_cons.1 hbl with rfl | hbl
        · exact hb
        · exact h.blkLive b hbl
      · intro b hbb
        rcases hbase.cover b hbb with hx | hx | hx
        · rcases hmem b hx with rfl | hx
          · exact .inr (.inl (by simp))
          · exact .inl hx
        · exact .inr (.inl (List.mem_cons_of_mem _ hx))
        · exact .inr (.inr hx)
      · intro i b hi
        obtain ⟨h1, h2, h3⟩ := hbase.ds i b hi
        refine ⟨h1, fun hx => h2 (hsub b hx), fun hx => ?_⟩
        rcases List.mem_cons.1 hx with rfl | hx
        · exact h2 hpF
        · exact h3 hx
      · exact hbase.dsUniq
      · intro i b o hi
        have hbF := hbase.dl i b o hi
        rcases hmem b hbF with rfl | hx
        · exfalso
          simp only [CState.goto] at hi
          split at hi
          · cases hi
          · exact hnodl i o hi
        · exact hx
      · exact hbase.dlUniq
      · exact hbase.ld
      · intro i q m hi
        obtain ⟨h1, h2⟩ := hbase.nx i q m hi
        exact ⟨h1, fun hq => (h2 (hsub q hq)).congr (fun _ _ => Iff.rfl) rfl⟩
      · exact hbase.nodl
    · exact h.goto (by simp [hp]) (by simp [hp]) (by simp) (by simp) (by simp) (by simp)
  | callFree t b =>
    simp only [PoolConc.step] at hs
    cases hp : s.pc t <;> rw [hp] at hs <;> try cases hs
    simp only at hs
    split at hs
    · rename_i hbl
      cases hs
      refine ⟨_, rfl, ?_⟩
      have hiff : ∀ b' i o, (s.goto t (.dStart b)).pc i = .dLink b' o ↔ s.pc i = .dLink b' o := by
        intro b' i o; simp only [CState.goto]; split
        · rename_i e; subst e; simp [hp]
        · exact Iff.rfl
      have hln : ∀ b' v, LNext s b' v →
          LNext { s.goto t (.dStart b) with live := s.live.erase b } b' v :=
        fun b' v hv => hv.congr (hiff b') rfl
      have hne : ∀ b', b' ∈ s.live.erase b ↔ b' ≠ b ∧ b' ∈ s.live := fun b' => h.nodupLive.mem_erase_iff
      have hbF : b ∉ F := fun hx => h.disj b hx hbl
      show CInv c { s.goto t (.dStart b) with live := s.live.erase b } F
      constructor
      · exact h.chain.congr (fun a _ v => hln a v)
      · exact h.nodupF
      · exact h.nodupLive.erase b
      · intro b' h1 h2; exact h.disj b' h1 ((hne b').1 h2).2
      · exact h.blkF
      · intro b' h1; exact h.blkLive b' ((hne b').1 h1).2
      · intro b' hb'
        rcases h.cover b' hb' with hx | hx | ⟨i, hi⟩
        · exact .inl hx
        · by_cases e : b' = b
          · subst e; exact .inr (.inr ⟨t, by simp [CState.goto]⟩)
          · exact .inr (.inl ((hne b').2 ⟨e, hx⟩))
        · refine .inr (.inr ⟨i, ?_⟩)
          simp only [CState.goto]
          split
          · rename_i e; subst e; rw [hp] at hi; cases hi
          · exact hi
      · intro i b' hi
        simp only [CState.goto] at hi
        split at hi
        · injection hi with hi; subst hi
          exact ⟨h.blkLive b hbl, hbF, fun hx => ((hne b).1 hx).1 rfl⟩
        · obtain ⟨h1, h2, h3⟩ := h.ds i b' hi
          exact ⟨h1, h2, fun hx => h3 ((hne b').1 hx).2⟩
      · intro i j b' hi hj
        simp only [CState.goto] at hi hj
        split at hi <;> split at hj
        · omega
        · injection hi with hi; subst hi
          exact absurd hbl (h.ds j b hj).2.2
        · injection hj with hj; subst hj
          exact absurd hbl (h.ds i b hi).2.2
        · exact h.dsUniq i j b' hi hj
      · exact fun i b' o hi => h.dl i b' o ((hiff b' i o).1 hi)
      · exact fun i j b' o o' hi hj => h.dlUniq i j b' o o' ((hiff b' i o).1 hi) ((hiff b' j o').1 hj)
      · intro i p hi
        simp only [CState.goto] at hi
        split at hi
        · cases hi
        · exact h.ld i p hi
      · intro i p n hi
        simp only [CState.goto] at hi
        split at hi
        · cases hi
        · exact ⟨(h.nx i p n hi).1, fun hq => hln p n ((h.nx i p n hi).2 hq)⟩
      · intro i j b' o n hi hj
        simp only [CState.goto] at hj
        split at hj
        · cases hj
        · exact h.nodl i j b' o n ((hiff b' i o).1 hi) hj
    · cases hs
  | exchange t =>
    simp only [PoolConc.step] at hs
    cases hp : s.pc t <;> rw [hp] at hs <;> cases hs
    rename_i b
    refine ⟨_, rfl, ?_⟩
    simp only [absStep, hp]
    obtain ⟨hbb, hbF, hbl⟩ := h.ds t b hp
    have hno := hr b hp
    have hnodl : ∀ i o, s.pc i ≠ .dLink b o := fun i o hi => hbF (h.dl i b o hi)
    have hiff : ∀ b' i o, b' ≠ b → ((s.goto t (.dLink b s.head)).pc i = .dLink b' o ↔ s.pc i = .dLink b' o) := by
      intro b' i o hne; simp only [CState.goto]; split
      · rename_i e; subst e
        constructor
        · intro hx; injection hx with hx; exact absurd hx.symm hne
        · intro hx; rw [hp] at hx; cases hx
      · exact Iff.rfl
    have hln : ∀ b' v, b' ∈ F → LNext s b' v →
        LNext { s.goto t (.dLink b s.head) with head := b } b' v :=
      fun b' v hb' hv => hv.congr (fun i o => hiff b' i o (fun e => hbF (e ▸ hb'))) rfl
    show CInv c { s.goto t (.dLink b s.head) with head := b } (b :: F)
    constructor
    · refine ⟨rfl, s.head, .inl ⟨t, by simp [CState.goto]⟩, ?_⟩
      exact h.chain.congr (fun a ha v => hln a v ha)
    · exact List.nodup_cons.2 ⟨hbF, h.nodupF⟩
    · exact h.nodupLive
    · intro b' h1
      rcases List.mem_cons.1 h1 with rfl | h1
      · exact hbl
      · exact h.disj b' h1
    · intro b' h1
      rcases List.mem_cons.1 h1 with rfl | h1
      · exact hbb
      · exact h.blkF b' h1
    · exact h.blkLive
    · intro b' hb'
      rcases h.cover b' hb' with hx | hx | ⟨i, hi⟩
      · exact .inl (List.mem_cons_of_mem _ hx)
      · exact .inr (.inl hx)
      · by_cases e : i = t
        · subst e; rw [hp] at hi; injection hi with hi; subst hi; exact .inl (by simp)
        · exact .inr (.inr ⟨i, by simp [CState.goto, e, hi]⟩)
    · intro i b' hi
      simp only [CState.goto] at hi
      split at hi
      · cases hi
      · rename_i hne
        obtain ⟨h1, h2, h3⟩ := h.ds i b' hi
        refine ⟨h1, fun hx => ?_, h3⟩
        rcases List.mem_cons.1 hx with rfl | hx
        · exact hne (h.dsUniq i t b' hi hp)
        · exact h2 hx
    · intro i j b' hi hj
      simp only [CState.goto] at hi hj
      split at hi
      · cases hi
      · split at hj
        · cases hj
        · exact h.dsUniq i j b' hi hj
    · intro i b' o hi
      simp only [CState.goto] at hi
      split at hi
      · injection hi with hi; subst hi; simp
      · exact List.mem_cons_of_mem _ (h.dl i b' o hi)
    · intro i j b' o o' hi hj
      simp only [CState.goto] at hi hj
      split at hi <;> split at hj
      · omega
      · injection hi with hi; subst hi; exact absurd hj (hnodl j o')
      · injection hj with hj; subst hj; exact absurd hi (hnodl i o)
      · exact h.dlUniq i j b' o o' hi hj
    · intro i p hi
      simp only [CState.goto] at hi
      split at hi
      · cases hi
      · exact h.ld i p hi
    · intro i p n hi
      simp only [CState.goto] at hi
      split at hi
      · cases hi
      · refine ⟨(h.nx i p n hi).1, fun hq => ?_⟩
        rcases List.mem_cons.1 hq with rfl | hq
        · exact absurd hi (hno i n)
        · exact hln p n hq ((h.nx i p n hi).2 hq)
    · intro i j b' o n hi hj
      simp only [CState.goto] at hi hj
      split at hj
      · cases hj
      · split at hi
        · injection hi with hi; subst hi; exact hno j n hj
        · exact h.nodl i j b' o n hi hj
  | store t =>
    simp only [PoolConc.step] at hs
    cases hp : s.pc t <;> rw [hp] at hs <;> cases hs
    rename_i b old
    have hbF := h.dl t b old hp
    have hbb := h.blkF b hbF
    rw [if_pos hbb]
    refine ⟨_, rfl, ?_⟩
    have honly : ∀ i o, s.pc i = .dLink b o → i = t := fun i o hi => h.dlUniq i t b o old hi hp
    have hiff : ∀ b' i o, b' ≠ b → ((s.goto t .idle).pc i = .dLink b' o ↔ s.pc i = .dLink b' o) := by
      intro b' i o hne; simp only [CState.goto]; split
      · rename_i e; subst e
        constructor
        · intro hx; cases hx
        · intro hx; rw [hp] at hx; injection hx with hx; exact absurd hx.symm hne
      · exact Iff.rfl
    have hln : ∀ b' v, LNext s b' v →
        LNext { s.goto t .idle with link := fun a => if a = b then old else s.link a } b' v := by
      intro b' v hv
      by_cases e : b' = b
      · subst e
        have : v = old := h.lnext_unique hv (.inl ⟨t, hp⟩)
        subst this
        refine .inr ⟨fun i o hi => ?_, by simp⟩
        simp only [CState.goto] at hi
        split at hi
        · cases hi
        · rename_i hne; exact hne (honly i o hi)
      · exact hv.congr (fun i o => hiff b' i o e) (by simp [e])
    have hiff' : ∀ b' i, (s.goto t .idle).pc i = .dStart b' ↔ s.pc i = .dStart b' := by
      intro b' i; simp only [CState.goto]; split
      · rename_i e; subst e; simp [hp]
      · exact Iff.rfl
    have hback : ∀ b' i o, (s.goto t .idle).pc i = .dLink b' o → s.pc i = .dLink b' o := by
      intro b' i o hi
      simp only [CState.goto] at hi
      split at hi
      · cases hi
      · exact hi
    show CInv c { s.goto t .idle with link := fun a => if a = b then old else s.link a } F
    constructor
    · exact h.chain.congr (fun a _ v => hln a v)
    · exact h.nodupF
    · exact h.nodupLive
    · exact h.disj
    · exact h.blkF
    · exact h.blkLive
    · intro b' hb'
      rcases h.cover b' hb' with hx | hx | ⟨i, hi⟩
      · exact .inl hx
      · exact .inr (.inl hx)
      · exact .inr (.inr ⟨i, (hiff' b' i).2 hi⟩)
    · exact fun i b' hi => h.ds i b' ((hiff' b' i).1 hi)
    · exact fun i j b' hi hj => h.dsUniq i j b' ((hiff' b' i).1 hi) ((hiff' b' j).1 hj)
    · exact fun i b' o hi => h.dl i b' o (hback b' i o hi)
    · exact fun i j b' o o' hi hj => h.dlUniq i j b' o o' (hback b' i o hi) (hback b' j o' hj)
    · intro i p hi
      simp only [CState.goto] at hi
      split at hi
      · cases hi
      · exact h.ld i p hi
    · intro i p n hi
      simp only [CState.goto] at hi
      split at hi
      · cases hi
      · exact ⟨(h.nx i p n hi).1, fun hq => hln p n ((h.nx i p n hi).2 hq)⟩
    · intro i j b' o n hi hj
      simp only [CState.goto] at hj
      split at hj
      · cases hj
      · exact h.nodl i j b' o n (hback b' i o hi) hj
  | clientWrite b v =>
    simp only [PoolConc.step] at hs
    split at hs
    · rename_i hbl
      cases hs
      refine ⟨_, rfl, ?_⟩
      have hln : ∀ b' w, b' ∈ F → LNext s b' w →
          LNext { s with link := fun a => if a = b then v else s.link a } b' w := by
        intro b' w hb' hw
        have e : b' ≠ b := fun e => h.disj b' hb' (e ▸ hbl)
        exact hw.congr (fun _ _ => Iff.rfl) (by simp [e])
      show CInv c { s with link := fun a => if a = b then v else s.link a } F
      constructor
      · exact h.chain.congr (fun a ha w => hln a w ha)
      · exact h.nodupF
      · exact h.nodupLive
      · exact h.disj
      · exact h.blkF
      · exact h.blkLive
      · exact h.cover
      · exact h.ds
      · exact h.dsUniq
      · exact h.dl
      · exact h.dlUniq
      · exact h.ld
      · exact fun i p n hi => ⟨(h.nx i p n hi).1, fun hq => hln p n hq ((h.nx i p n hi).2 hq)⟩
      · exact h.nodl
    · cases hs

end Uavcan.PoolConc
