import Verif.Lemmas.Pool

/-!
# C21–C24, C27–C29: the static memory pool, one thread

A *history* is any finite sequence of calls and client writes in which the client only gives back blocks it
holds (or null) and only writes inside blocks it holds. `live` is the client's own bookkeeping: which
pointers it was given and has not given back.
-/

namespace Uavcan.Pool
open Uavcan.Spec

/-- The client's bookkeeping after a call. -/
def track (live : List Nat) : Op → Result → List Nat
  | .allocate _ _, .ptr a => a :: live
  | .deallocate p, _ => live.erase p
  | _, _ => live

/-- The client's obligations. A block has `sizeofBlock` bytes, of which `BlockSize` are promised; even using the padding does no harm. -/
def ClientMay (c : Cfg) (live : List Nat) : Op → Prop
  | .allocate _ _ => True
  | .deallocate p => p = 0 ∨ p ∈ live
  | .write x _ => ∃ b ∈ live, b ≤ x ∧ x < b + c.sizeofBlock

/-- Pool state and client bookkeeping after some history. -/
inductive History (c : Cfg) : State → List Nat → Prop where
  | start (mem : Mem) : History c (init c mem) []
  | call {s s' live r} (op : Op) : History c s live → ClientMay c live op → exec c s op = .ok (r, s') →
      History c s' (track live op r)

theorem Inv.exec {c : Cfg} (hc : c.WF) {s : State} {free live : List Nat} (h : Inv c s free live) (op : Op)
    (hop : ClientMay c live op) :
    ∃ r s' free', Pool.exec c s op = .ok (r, s') ∧ Inv c s' free' (track live op r) := by
  cases op with
  | allocate size k =>
    have := h.allocate hc size k
    cases hs : stackAlloc c.blockSize free size with
    | none =>
      rw [hs] at this
      refine ⟨_, _, free, this, ?_⟩
      simp only [failure]; split <;> exact h
    | some p =>
      obtain ⟨a, rest⟩ := p
      rw [hs] at this
      obtain ⟨s', h1, -, h3⟩ := this
      exact ⟨_, _, rest, h1, h3⟩
  | deallocate p =>
    rcases hop with rfl | hp
    · refine ⟨_, s, free, rfl, ?_⟩
      have : 0 ∉ live := by
        intro h0
        have := (h.all 0).1 (by simp [h0])
        rw [Cfg.zero_not_isBlock hc] at this; cases this
      simpa [track, List.erase_of_not_mem this] using h
    · obtain ⟨h1, h2⟩ := h.deallocate hc hp
      exact ⟨_, _, _, h1, h2⟩
  | write x v =>
    obtain ⟨b, hb, h1, h2⟩ := hop
    exact ⟨_, _, _, rfl, h.write hc hb h1 h2 v⟩

theorem History.inv {c : Cfg} (hc : c.WF) {s : State} {live : List Nat} (h : History c s live) :
    ∃ free, Inv c s free live := by
  induction h with
  | start mem => exact ⟨_, Inv.init hc mem⟩
  | call op _ hop he ih =>
    obtain ⟨free, hi⟩ := ih
    obtain ⟨r, s', free', h1, h2⟩ := hi.exec hc op hop
    rw [he] at h1
    injection h1 with h1
    injection h1 with h1 h1'
    subst h1; subst h1'
    exact ⟨free', h2⟩

theorem Inv.card {c : Cfg} (hc : c.WF) {s : State} {free live : List Nat} (h : Inv c s free live) :
    free.length + live.length = c.numBlocks := by
  have h0 := Inv.init hc s.mem
  have hp : (free ++ live).Perm ((List.range c.numBlocks).map c.blockAddr ++ []) :=
    (List.perm_ext_iff_of_nodup h.nodup h0.nodup).2 (fun a => (h.all a).trans (h0.all a).symm)
  have := hp.length_eq
  simpa using this

/-! ## C21 -/

/-- C21: no call in a history is undefined behaviour (the history never gets stuck), and a successful
allocation returns a non-null block that is not live. -/
theorem C21_no_double_vend {c : Cfg} (hc : c.WF) {s : State} {live : List Nat} (h : History c s live) :
    (∀ op, ClientMay c live op → (exec c s op).Defined) ∧
    (∀ size k a s', allocate c s size k = .ok (.ptr a, s') → a ≠ 0 ∧ a ∉ live) := by
  obtain ⟨free, hi⟩ := h.inv hc
  refine ⟨?_, ?_⟩
  · intro op hop
    obtain ⟨r, s', -, h1, -⟩ := hi.exec hc op hop
    exact ⟨_, h1⟩
  · intro size k a s' hal
    have := hi.allocate hc size k
    cases hs : stackAlloc c.blockSize free size with
    | none =>
      rw [hs] at this
      simp only at this
      rw [this] at hal
      injection hal with hal
      injection hal with h1 h2
      simp only [failure] at h1
      split at h1 <;> cases h1
    | some p =>
      obtain ⟨b, rest⟩ := p
      rw [hs] at this
      obtain ⟨s'', h1, -, h3⟩ := this
      rw [h1] at hal
      injection hal with hal
      injection hal with e1 e2
      injection e1 with e1
      subst e1
      have hb : c.isBlock b = true := (h3.all b).1 (by simp)
      have := Cfg.isBlock_pos hc hb
      refine ⟨by omega, fun hm => ?_⟩
      have hnd := (List.nodup_append.1 h3.nodup).2.1
      exact (List.nodup_cons.1 hnd).1 hm

/-- C21: live blocks are all different, lie inside the pool's storage, are maximally aligned, and each has
`sizeofBlock ≥ BlockSize` bytes of its own. -/
theorem C21_live_blocks_disjoint {c : Cfg} (hc : c.WF) {s : State} {live : List Nat} (h : History c s live) :
    live.Nodup ∧
    (∀ a ∈ live, 0 < a ∧ a % c.maxAlign = 0 ∧ c.base ≤ a ∧
      a + c.sizeofBlock ≤ c.base + c.numBlocks * c.sizeofBlock) ∧
    (∀ a ∈ live, ∀ b ∈ live, a ≠ b → DisjointRanges a c.sizeofBlock b c.sizeofBlock) ∧
    c.blockSize ≤ c.sizeofBlock := by
  obtain ⟨free, hi⟩ := h.inv hc
  have hb : ∀ a ∈ live, c.isBlock a = true := fun a ha => (hi.all a).1 (by simp [ha])
  refine ⟨(List.nodup_append.1 hi.nodup).2.1, ?_, ?_, hc.sizes.1⟩
  · intro a ha
    have h1 := Cfg.isBlock_bounds hc (hb a ha)
    exact ⟨Cfg.isBlock_pos hc (hb a ha), Cfg.isBlock_aligned hc (hb a ha), h1.1, h1.2⟩
  · intro a ha b hb' hne
    exact Cfg.isBlock_disjoint hc (hb a ha) (hb b hb') hne

/-- A small pool for the examples: three blocks of 8 bytes at address 16, 2-byte pointers. -/
def exCfg (exceptions : Bool) : Cfg :=
  { numBlocks := 3, blockSize := 8, ptrSize := 2, maxAlign := 4, maxAlignSize := 4, base := 16,
    exceptions := exceptions }

theorem exCfg_wf (b : Bool) : (exCfg b).WF := by
  constructor <;> first | decide | (simp [exCfg, Cfg.sizeofBlock, roundUp])

/-- The results of a program on the example pool. -/
def exRun (ops : List Op) : Option (List Result) :=
  match run (exCfg false) (init (exCfg false) (fun _ => 0)) ops with
  | .ok (rs, _) => some rs
  | .ub _ => none

/-- A real history: two allocations, one release, the released block comes back; client data written over
the link bytes in between does no harm. -/
example : exRun [.allocate 8 0, .write 16 255, .write 17 255, .allocate 1 2, .deallocate 16, .allocate 3 0,
    .allocate 8 0, .allocate 8 0] =
    some [.ptr 16, .done, .done, .ptr 24, .done, .ptr 16, .ptr 32, .null] := by decide

/-- Such states are reachable in the sense of `History`. -/
example : ∃ s, History (exCfg false) s [24, 16] := by
  have h0 : History (exCfg false) (init (exCfg false) (fun _ => 0)) [] := .start _
  obtain ⟨r1, s1, f1, e1, i1⟩ := (Inv.init (exCfg_wf false) (fun _ => 0)).exec (exCfg_wf false)
    (.allocate 8 0) trivial
  have := (Inv.init (exCfg_wf false) (fun _ => 0)).allocate (exCfg_wf false) 8 0
  obtain ⟨s1, e1, -, i1⟩ := this
  have := i1.allocate (exCfg_wf false) 8 0
  obtain ⟨s2, e2, -, i2⟩ := this
  exact ⟨s2, .call (.allocate 8 0) (.call (.allocate 8 0) h0 trivial e1) trivial e2⟩

/-- The client's obligation is needed: giving back a block that is not live makes the pool hand out the same
block twice. -/
theorem C21_double_free_breaks_the_pool :
    exRun [.allocate 8 0, .deallocate 16, .deallocate 16, .allocate 8 0, .allocate 8 0] =
      some [.ptr 16, .done, .done, .ptr 16, .ptr 16] := by decide

/-- Another necessity: writing to a block after giving it back can make the pool follow a wild pointer. -/
theorem C21_use_after_free_breaks_the_pool :
    exRun [.allocate 8 0, .deallocate 16, .write 16 7, .allocate 8 0, .allocate 8 0] = none := by decide

/-! ## C22 -/

/-- A failed allocation is one that does not return a (non-null) pointer. -/
def Failed : Result → Prop
  | .ptr _ => False
  | _ => True

/-- C22: allocation fails exactly when the request is too large or every block is live; a failed call changes
nothing at all, and a successful one changes no byte of memory. -/
theorem C22_fails_iff {c : Cfg} (hc : c.WF) {s : State} {live : List Nat} (h : History c s live)
    (size k : Nat) :
    ∃ r s', allocate c s size k = .ok (r, s') ∧
      (Failed r ↔ size > c.blockSize ∨ live.length = c.numBlocks) ∧
      (Failed r → s' = s) ∧ s'.mem = s.mem := by
  obtain ⟨free, hi⟩ := h.inv hc
  have hcard := hi.card hc
  have := hi.allocate hc size k
  unfold stackAlloc at this
  by_cases hs : size ≤ c.blockSize
  · simp only [hs, if_true] at this
    cases free with
    | nil =>
      refine ⟨_, _, this, ?_, fun _ => rfl, rfl⟩
      simp only [List.length_nil] at hcard
      have : Failed (failure c) := by simp only [failure]; split <;> trivial
      exact ⟨fun _ => .inr (by omega), fun _ => this⟩
    | cons a rest =>
      obtain ⟨s', h1, h2, -⟩ := this
      refine ⟨_, _, h1, ?_, fun hf => hf.elim, h2⟩
      simp only [List.length_cons] at hcard
      exact ⟨fun hf => hf.elim, fun hf => by omega⟩
  · simp only [hs, if_false] at this
    have hf : Failed (failure c) := by simp only [failure]; split <;> trivial
    exact ⟨_, _, this, ⟨fun _ => .inl (by omega), fun _ => hf⟩, fun _ => rfl, rfl⟩

/-- How a failed allocation shows: `std::bad_alloc` with exceptions, null without. -/
theorem C22_how_it_fails {c : Cfg} {s s' : State} {size k : Nat} {r : Result}
    (h : allocate c s size k = .ok (r, s')) (hf : Failed r) :
    r = if c.exceptions then .badAlloc else .null := by
  have hloop : ∀ k, allocLoop c s k = .ok (r, s') → r = failure c := by
    intro k
    induction k with
    | zero =>
      intro h
      simp only [allocLoop] at h
      cases ha : attempt c s with
      | ub u => rw [ha] at h; cases h
      | ok o =>
        rw [ha] at h
        cases o with
        | none => cases h; rfl
        | some p => cases h; exact hf.elim
    | succ k ih =>
      intro h
      simp only [allocLoop] at h
      cases ha : attempt c s with
      | ub u => rw [ha] at h; cases h
      | ok o =>
        rw [ha] at h
        cases o with
        | none => cases h; rfl
        | some p => exact ih h
  simp only [allocate] at h
  split at h
  · exact hloop k h
  · cases h; rfl

example : exRun [.allocate 9 0, .allocate 8 0, .allocate 0 0, .allocate 1 5, .allocate 1 0] =
    some [.null, .ptr 16, .ptr 24, .ptr 32, .null] := by decide

/-! ## C23 -/

/-- C23: after any history, of any sequence of further requests that fit a block exactly the first
`NumBlocks - (number of live blocks)` succeed. -/
theorem C23_serves_the_rest {c : Cfg} (hc : c.WF) {s : State} {live : List Nat} (h : History c s live)
    (reqs : List (Nat × Nat)) (hfit : ∀ q ∈ reqs, q.1 ≤ c.blockSize) :
    ∃ (ptrs : List Nat) (s' : State), run c s (reqs.map fun q => .allocate q.1 q.2) =
        .ok (ptrs.map Result.ptr ++ List.replicate (reqs.length - (c.numBlocks - live.length)) (failure c), s') ∧
      ptrs.length = min reqs.length (c.numBlocks - live.length) ∧
      (ptrs.reverse ++ live).Nodup := by
  obtain ⟨free, hi⟩ := h.inv hc
  clear h
  induction reqs generalizing s live free with
  | nil => exact ⟨[], s, by simp [run], by simp, by simpa using (List.nodup_append.1 hi.nodup).2.1⟩
  | cons q reqs ih =>
    have hcard := hi.card hc
    have hq := hfit q (by simp)
    have hal := hi.allocate hc q.1 q.2
    unfold stackAlloc at hal
    simp only [hq, if_true] at hal
    cases free with
    | nil =>
      simp only [List.length_nil] at hcard
      simp only at hal
      obtain ⟨ptrs, s', h1, h2, h3⟩ := ih (fun q hq => hfit q (by simp [hq])) [] hi
      have h0 : c.numBlocks - live.length = 0 := by omega
      rw [h0] at h1 h2 ⊢
      have hp : ptrs = [] := by
        apply List.eq_nil_of_length_eq_zero; omega
      subst hp
      refine ⟨[], s', ?_, by simp, h3⟩
      simp only [List.map_cons, run, exec, hal, Outcome.ok_bind, h1]
      simp [List.replicate_succ]
    | cons a rest =>
      obtain ⟨s1, h1, -, h3⟩ := hal
      obtain ⟨ptrs, s', g1, g2, g3⟩ := ih (fun q hq => hfit q (by simp [hq])) rest h3
      simp only [List.length_cons] at hcard g1 g2
      refine ⟨a :: ptrs, s', ?_, by simp only [List.length_cons]; omega, by simpa using g3⟩
      simp only [List.map_cons, run, exec, h1, Outcome.ok_bind, g1]
      have : reqs.length - (c.numBlocks - (live.length + 1)) = (reqs.length + 1) - (c.numBlocks - live.length) := by
        omega
      simp [this]

/-- C23: last in, first out. The block given back last is handed out next, and afterwards everything is as if
neither had happened, except for the bytes of the link. -/
theorem C23_lifo {c : Cfg} (hc : c.WF) {s : State} {live : List Nat} (h : History c s live)
    {p : Nat} (hp : p ∈ live) (size k : Nat) (hfit : size ≤ c.blockSize) :
    ∃ s1 s2, deallocate c s p = .ok (.done, s1) ∧ allocate c s1 size k = .ok (.ptr p, s2) ∧
      s2.head = s.head := by
  obtain ⟨free, hi⟩ := h.inv hc
  obtain ⟨h1, h2⟩ := hi.deallocate hc hp
  have := allocLoop_cons hc h2 k
  refine ⟨_, { mem := storePtr c s.mem p s.head, head := loadPtr c (storePtr c s.mem p s.head) p }, h1, ?_, ?_⟩
  · simp only [allocate, hfit, if_true]; exact this
  · have hc2 := h2.chain.2
    have hc1 := hi.chain
    simp only at hc2 ⊢
    cases free with
    | nil =>
      have e1 : s.head = 0 := hc1
      have e2 : loadPtr c (storePtr c s.mem p s.head) p = 0 := hc2
      exact e2.trans e1.symm
    | cons a rest =>
      have e1 : s.head = a := hc1.1
      have e2 : loadPtr c (storePtr c s.mem p s.head) p = a := hc2.1
      exact e2.trans e1.symm

/-- Behaviour of an ideal pool: a stack of free blocks, no memory at all. -/
def idealRun (c : Cfg) (free : FreeStack) : List Op → List Result
  | [] => []
  | .allocate size _ :: ops =>
    match stackAlloc c.blockSize free size with
    | none => (if c.exceptions then .badAlloc else .null) :: idealRun c free ops
    | some (a, rest) => .ptr a :: idealRun c rest ops
  | .deallocate p :: ops => .done :: idealRun c (if p = 0 then free else stackFree free p) ops
  | .write _ _ :: ops => .done :: idealRun c free ops

/-- The client keeps its obligations throughout a program, given what the pool answers. -/
def ClientBehaves (c : Cfg) : List Nat → List Op → List Result → Prop
  | live, op :: ops, r :: rs => ClientMay c live op ∧ ClientBehaves c (track live op r) ops rs
  | _, _, _ => True

/-- C23: over every program, the pool gives exactly the answers of the ideal stack which initially holds all
blocks in ascending order. -/
theorem C23_refines_ideal_stack {c : Cfg} (hc : c.WF) (mem : Mem) (ops : List Op)
    (hok : ClientBehaves c [] ops (idealRun c ((List.range c.numBlocks).map c.blockAddr) ops)) :
    ∃ s, run c (init c mem) ops = .ok (idealRun c ((List.range c.numBlocks).map c.blockAddr) ops, s) := by
  have key : ∀ (ops : List Op) (s : State) (free live : List Nat), Inv c s free live →
      ClientBehaves c live ops (idealRun c free ops) → ∃ s', run c s ops = .ok (idealRun c free ops, s') := by
    intro ops
    induction ops with
    | nil => intro s free live _ _; exact ⟨s, rfl⟩
    | cons op ops ih =>
      intro s free live hi hok
      cases op with
      | allocate size k =>
        have hal := hi.allocate hc size k
        cases hs : stackAlloc c.blockSize free size with
        | none =>
          rw [hs] at hal
          simp only [idealRun, hs, ClientBehaves] at hok
          have hok' : ClientBehaves c live ops (idealRun c free ops) := by
            have h2 := hok.2
            cases hx : c.exceptions <;> simp only [hx, Bool.false_eq_true, if_true, if_false, track] at h2 <;>
              exact h2
          obtain ⟨s', h'⟩ := ih s free live hi hok'
          refine ⟨s', ?_⟩
          simp only at hal
          simp only [run, exec, hal, Outcome.ok_bind, h', idealRun, hs, failure, Outcome.pure_eq]
        | some p =>
          obtain ⟨a, rest⟩ := p
          rw [hs] at hal
          obtain ⟨s1, h1, -, h3⟩ := hal
          simp only [idealRun, hs, ClientBehaves, track] at hok
          obtain ⟨s', h'⟩ := ih s1 rest (a :: live) h3 hok.2
          refine ⟨s', ?_⟩
          simp only [run, exec, h1, Outcome.ok_bind, h', idealRun, hs, Outcome.pure_eq]
      | deallocate p =>
        simp only [idealRun, ClientBehaves, track] at hok
        obtain ⟨hmay, hok⟩ := hok
        by_cases h0 : p = 0
        · subst h0
          obtain ⟨r, s1, f1, e1, i1⟩ := hi.exec hc (.deallocate 0) (.inl rfl)
          have hz : 0 ∉ live := by
            intro h0
            have := (hi.all 0).1 (by simp [h0])
            rw [Cfg.zero_not_isBlock hc] at this; cases this
          rw [List.erase_of_not_mem hz] at hok
          simp only [if_true] at hok
          obtain ⟨s', h'⟩ := ih s free live hi hok
          exact ⟨s', by simp [run, exec, Pool.deallocate, h', idealRun]⟩
        · have hp : p ∈ live := hmay.resolve_left h0
          obtain ⟨h1, h2⟩ := hi.deallocate hc hp
          simp only [h0, if_false, stackFree] at hok
          obtain ⟨s', h'⟩ := ih _ _ _ h2 hok
          exact ⟨s', by simp only [run, exec, h1, Outcome.ok_bind, h', idealRun, h0, if_false, stackFree,
            Outcome.pure_eq]⟩
      | write x v =>
        simp only [idealRun, ClientBehaves, track] at hok
        obtain ⟨⟨b, hb, h1, h2⟩, hok⟩ := hok
        obtain ⟨s', h'⟩ := ih _ _ _ (hi.write hc hb h1 h2 v) hok
        exact ⟨s', by simp only [run, exec, Outcome.ok_bind, h', idealRun, Outcome.pure_eq]⟩
  exact key ops _ _ _ (Inv.init hc mem) hok

example : idealRun (exCfg true) [16, 24, 32] [.allocate 8 0, .allocate 8 0, .deallocate 16, .deallocate 24,
    .allocate 8 0, .allocate 9 0] = [.ptr 16, .ptr 24, .done, .done, .ptr 24, .badAlloc] := by decide

/-! ## C24 -/

/-- C24: a byte of a live block keeps its value over any further program that neither gives the block back
nor writes that byte. -/
theorem C24_contents_kept {c : Cfg} (hc : c.WF) {s : State} {live : List Nat} (h : History c s live)
    {b x : Nat} (hb : b ∈ live) (h1 : b ≤ x) (h2 : x < b + c.sizeofBlock)
    (ops : List Op) (hd : Op.deallocate b ∉ ops) (hw : ∀ v, Op.write x v ∉ ops)
    {rs : List Result} {s' : State} (hrun : run c s ops = .ok (rs, s')) (hok : ClientBehaves c live ops rs) :
    s'.mem x = s.mem x := by
  obtain ⟨free, hi⟩ := h.inv hc
  clear h
  induction ops generalizing s live free rs with
  | nil => simp only [run] at hrun; cases hrun; rfl
  | cons op ops ih =>
    simp only [run] at hrun
    obtain ⟨⟨r, s1⟩, e1, e2⟩ := Outcome.bind_eq_ok.1 hrun
    obtain ⟨⟨rs', s2⟩, e3, e4⟩ := Outcome.bind_eq_ok.1 e2
    cases e4
    have hmay := hok.1
    obtain ⟨r', s1', f1, g1, i1⟩ := hi.exec hc op hmay
    rw [e1] at g1
    cases g1
    have hd' : Op.deallocate b ∉ ops := fun hm => hd (by simp [hm])
    have hw' : ∀ v, Op.write x v ∉ ops := fun v hm => hw v (by simp [hm])
    have hblk : c.isBlock b = true := (hi.all b).1 (by simp [hb])
    have hlive : b ∈ track live op r := by
      cases op with
      | allocate size k => cases r <;> simp [track, hb]
      | deallocate p =>
        have : b ≠ p := fun e => hd (by simp [e])
        exact (List.mem_erase_of_ne this).2 hb
      | write y v => cases r <;> simp [track, hb]
    have hmem : s1.mem x = s.mem x := by
      cases op with
      | allocate size k =>
        have := hi.allocate hc size k
        cases hs : stackAlloc c.blockSize free size with
        | none =>
          rw [hs] at this; simp only [exec] at e1; simp only at this
          rw [this] at e1; cases e1; rfl
        | some p =>
          obtain ⟨a, rest⟩ := p
          rw [hs] at this; simp only [exec] at e1
          obtain ⟨s3, j1, j2, -⟩ := this
          rw [j1] at e1; cases e1; rw [j2]
      | deallocate p =>
        rcases hmay with rfl | hp
        · simp [exec, deallocate] at e1; rw [← e1.2]
        · obtain ⟨j1, -⟩ := hi.deallocate hc hp
          simp only [exec] at e1
          rw [j1] at e1
          cases e1
          have hne : b ≠ p := fun e => hd (by simp [e])
          have hpb : c.isBlock p = true := (hi.all p).1 (by simp [hp])
          have hdj := Cfg.isBlock_disjoint hc hblk hpb hne
          have hps := hc.sizes
          simp only [DisjointRanges] at hdj
          show storePtr c s.mem p s.head x = s.mem x
          rw [storePtr_other]; omega
      | write y v =>
        have hne : y ≠ x := fun e => hw v (by simp [e])
        simp only [exec] at e1
        cases e1
        simp only
        rw [if_neg (fun e => hne e.symm)]
    rw [ih hlive hd' hw' e3 hok.2 f1 i1, hmem]

/-- The answers to the allocation calls of a program. -/
def answers : List Op → List Result → List Result
  | .allocate _ _ :: ops, r :: rs => r :: answers ops rs
  | _ :: ops, _ :: rs => answers ops rs
  | _, _ => []

/-- A call on the pool (as opposed to a write by the client). -/
def isCall : Op → Bool
  | .write _ _ => false
  | _ => true

/-- C24: whatever the client writes into blocks it holds does not influence the pool. The program with all
writes removed gets the same answers, whatever the memory contained initially. -/
theorem C24_writes_harmless {c : Cfg} (hc : c.WF) (mem mem' : Mem) (ops : List Op)
    (hok : ClientBehaves c [] ops (idealRun c ((List.range c.numBlocks).map c.blockAddr) ops)) :
    ∃ rs s rs' s', run c (init c mem) ops = .ok (rs, s) ∧
      run c (init c mem') (ops.filter isCall) = .ok (rs', s') ∧
      answers ops rs = answers (ops.filter isCall) rs' := by
  have key : ∀ (ops : List Op) (free live : List Nat), ClientBehaves c live ops (idealRun c free ops) →
      ClientBehaves c live (ops.filter isCall) (idealRun c free (ops.filter isCall)) ∧
      answers ops (idealRun c free ops) = answers (ops.filter isCall) (idealRun c free (ops.filter isCall)) := by
    intro ops
    induction ops with
    | nil => intro free live h; exact ⟨h, rfl⟩
    | cons op ops ih =>
      intro free live h
      cases op with
      | allocate size k =>
        simp only [List.filter_cons, isCall, if_true]
        simp only [idealRun] at h ⊢
        cases hs : stackAlloc c.blockSize free size with
        | none =>
          rw [hs] at h
          simp only at h ⊢
          have := ih free _ h.2
          cases hx : c.exceptions <;>
            simp only [hx, Bool.false_eq_true, if_true, if_false, track, ClientBehaves, answers] at this h ⊢ <;>
            exact ⟨⟨trivial, this.1⟩, by rw [this.2]⟩
        | some p =>
          obtain ⟨a, rest⟩ := p
          rw [hs] at h
          simp only at h ⊢
          have := ih rest _ h.2
          exact ⟨⟨trivial, this.1⟩, by simp only [answers]; rw [this.2]⟩
      | deallocate p =>
        simp only [List.filter_cons, isCall, if_true]
        simp only [idealRun] at h ⊢
        have := ih _ _ h.2
        exact ⟨⟨h.1, this.1⟩, by simp only [answers]; exact this.2⟩
      | write x v =>
        simp only [List.filter_cons, isCall, Bool.false_eq_true, if_false]
        simp only [idealRun] at h ⊢
        have := ih free live h.2
        exact ⟨this.1, by simp only [answers]; exact this.2⟩
  obtain ⟨h1, h2⟩ := key ops _ _ hok
  obtain ⟨s, hs⟩ := C23_refines_ideal_stack hc mem ops hok
  obtain ⟨s', hs'⟩ := C23_refines_ideal_stack hc mem' _ h1
  exact ⟨_, s, _, s', hs, hs', h2⟩

/-- The link bytes and the client's bytes really are the same bytes. -/
example : (init (exCfg false) (fun _ => 0)).mem 16 = 24 ∧
    (storePtr (exCfg false) (fun _ => 7) 16 0x1234) 16 = 0x34 ∧
    (storePtr (exCfg false) (fun _ => 7) 16 0x1234) 17 = 0x12 ∧
    (storePtr (exCfg false) (fun _ => 7) 16 0x1234) 18 = 7 := by decide

/-- The bytes of no block's pointer to the next one. -/
theorem run_not_link {c : Cfg} {x : Nat} (hx : ∀ b, c.isBlock b = true → ¬ (b ≤ x ∧ x < b + c.ptrSize)) (ops : List Op)
    (hw : ∀ v, Op.write x v ∉ ops) {s s' : State} {rs : List Result} (hrun : run c s ops = .ok (rs, s')) :
    s'.mem x = s.mem x := by
  have hloop : ∀ (k : Nat) (s s1 : State) (r : Result), allocLoop c s k = .ok (r, s1) → s1.mem = s.mem := by
    intro k
    induction k with
    | zero =>
      intro s s1 r h
      simp only [allocLoop] at h
      cases ha : attempt c s with
      | ub u => rw [ha] at h; cases h
      | ok o =>
        rw [ha] at h
        cases o <;> cases h <;> rfl
    | succ k ih =>
      intro s s1 r h
      simp only [allocLoop] at h
      cases ha : attempt c s with
      | ub u => rw [ha] at h; cases h
      | ok o =>
        rw [ha] at h
        cases o with
        | none => cases h; rfl
        | some p => exact ih s s1 r h
  induction ops generalizing s rs with
  | nil => simp only [run] at hrun; cases hrun; rfl
  | cons op ops ih =>
    simp only [run] at hrun
    obtain ⟨⟨r, s1⟩, e1, e2⟩ := Outcome.bind_eq_ok.1 hrun
    obtain ⟨⟨rs', s2⟩, e3, e4⟩ := Outcome.bind_eq_ok.1 e2
    cases e4
    rw [ih (fun v hv => hw v (List.mem_cons_of_mem _ hv)) e3]
    cases op with
    | allocate size k =>
      simp only [exec, allocate] at e1
      split at e1
      · rw [hloop k s s1 r e1]
      · cases e1; rfl
    | deallocate p =>
      simp only [exec, deallocate] at e1
      split at e1
      · cases e1; rfl
      · split at e1
        · rename_i hp
          cases e1
          simp only [storePtr]
          rw [if_neg (hx p hp)]
        · cases e1
    | write y v =>
      simp only [exec] at e1
      cases e1
      have : x ≠ y := by
        rintro rfl
        exact hw v (List.mem_cons_self ..)
      simp only [if_neg this]

theorem initLoop_not_link {c : Cfg} (hc : c.WF) {x : Nat}
    (hx : ∀ b, c.isBlock b = true → ¬ (b ≤ x ∧ x < b + c.ptrSize)) (i : Nat) (hi : i ≤ c.numBlocks) (mem : Mem) (next : Nat) :
    initLoop c mem next i x = mem x := by
  induction i generalizing mem next with
  | zero => rfl
  | succ i ih =>
    simp only [initLoop]
    rw [ih (by omega)]
    simp only [storePtr]
    rw [if_neg (hx _ (Cfg.blockAddr_isBlock hc (by omega)))]

/-- C24: constructing the pool and every program on it, whether it behaves or not, as long as its behaviour is defined, writes
only the first `sizeof(void*)` bytes of blocks, beyond the zeros that construction leaves in the storage. So a byte outside
the storage keeps what it was, and a byte of a block behind those of the pointer is 0 until the program writes it. -/
theorem C24_only_links {c : Cfg} (hc : c.WF) (mem : Mem) (ops : List Op) {rs : List Result} {s : State}
    (hrun : run c (init c mem) ops = .ok (rs, s)) {x : Nat} (hw : ∀ v, Op.write x v ∉ ops) :
    (x < c.base ∨ c.base + c.numBlocks * c.sizeofBlock ≤ x → s.mem x = mem x) ∧
    (∀ i k, i < c.numBlocks → c.ptrSize ≤ k → k < c.sizeofBlock → x = c.blockAddr i + k → s.mem x = 0) := by
  have hs := hc.sizes
  have key : (∀ b, c.isBlock b = true → ¬ (b ≤ x ∧ x < b + c.ptrSize)) → s.mem x = zeroStorage c mem x := by
    intro hx
    rw [run_not_link hx ops hw hrun]
    simp only [init]
    rw [initLoop_not_link hc hx _ (by omega)]
    simp only [storePtr]
    rw [if_neg (hx _ (Cfg.blockAddr_isBlock hc (by have := hc.numBlocks_pos; omega)))]
  constructor
  · intro ho
    rw [key]
    · simp only [zeroStorage]
      rw [if_neg (by omega)]
    · intro b hb
      have := Cfg.isBlock_bounds hc hb
      omega
  · intro i k hi h1 h2 e
    have hin := Cfg.isBlock_bounds hc (Cfg.blockAddr_isBlock hc hi)
    rw [key]
    · simp only [zeroStorage]
      rw [if_pos (by omega)]
    · intro b hb
      obtain ⟨j, hj, rfl⟩ := (Cfg.isBlock_iff hc b).1 hb
      by_cases hij : i = j
      · subst hij; omega
      · have := Cfg.blockAddr_disjoint (c := c) hij
        simp only [DisjointRanges] at this
        omega

/-- A byte behind the pointer of the second block, and one behind the storage, after some calls. -/
example : (match run (exCfg false) (init (exCfg false) (fun _ => 9)) [.allocate 8 0, .write 16 5, .deallocate 16] with
    | .ok (_, s) => some (s.mem 26, s.mem 40, s.mem 24) | .ub _ => none) = some (0, 9, 32) := by decide

/-- A program that satisfies the hypotheses of the theorems above, with writes over the link bytes. -/
example : ClientBehaves (exCfg false) [] [.allocate 8 0, .write 17 255, .allocate 8 0, .deallocate 16]
    (idealRun (exCfg false) ((List.range 3).map (exCfg false).blockAddr)
      [.allocate 8 0, .write 17 255, .allocate 8 0, .deallocate 16]) := by
  refine ⟨trivial, ⟨16, ?_, ?_, ?_⟩, trivial, .inr ?_, trivial⟩ <;> decide

/-! ## C27 -/

/-- Translate answers between the two builds. -/
def Result.toNoThrow : Result → Result
  | .badAlloc => .null
  | r => r

/-- C27: for every program at all (well-behaved or not) the two builds reach the same state with the same
answers, except that where one throws the other returns null. Undefined behaviour is the same too. -/
theorem C27_exceptions_irrelevant (c : Cfg) (s : State) (ops : List Op) :
    run { c with exceptions := false } s ops =
      (fun p : List Result × State => (p.1.map Result.toNoThrow, p.2)) <$> run { c with exceptions := true } s ops := by
  have hattempt : ∀ (s : State) (b : Bool), attempt { c with exceptions := b } s = attempt c s := fun s b => rfl
  have hloop : ∀ (k : Nat) (s : State), allocLoop { c with exceptions := false } s k =
      (fun p : Result × State => (p.1.toNoThrow, p.2)) <$> allocLoop { c with exceptions := true } s k := by
    intro k
    induction k with
    | zero =>
      intro s
      simp only [allocLoop, hattempt]
      cases attempt c s with
      | ub u => rfl
      | ok o => cases o <;> rfl
    | succ k ih =>
      intro s
      simp only [allocLoop, hattempt]
      cases attempt c s with
      | ub u => rfl
      | ok o =>
        cases o with
        | none => rfl
        | some p => exact ih s
  have hexec : ∀ (op : Op) (s : State), exec { c with exceptions := false } s op =
      (fun p : Result × State => (p.1.toNoThrow, p.2)) <$> exec { c with exceptions := true } s op := by
    intro op s
    cases op with
    | allocate size k =>
      simp only [exec, allocate]
      split
      · exact hloop k s
      · rfl
    | deallocate p =>
      simp only [exec, deallocate]
      split
      · rfl
      · have : Cfg.isBlock { c with exceptions := false } p = Cfg.isBlock { c with exceptions := true } p := rfl
        rw [this]
        split <;> rfl
    | write x v => rfl
  induction ops generalizing s with
  | nil => rfl
  | cons op ops ih =>
    simp only [run, hexec]
    cases exec { c with exceptions := true } s op with
    | ub u => rfl
    | ok p =>
      simp only [Outcome.map_ok, Outcome.ok_bind, ih]
      cases run { c with exceptions := true } p.2 ops <;> rfl

/-- C27: the throwing build never returns null and the other build never throws. -/
theorem C27_never_mixed (c : Cfg) (s s' : State) (ops : List Op) (rs : List Result)
    (h : run c s ops = .ok (rs, s')) :
    (c.exceptions = true → Result.null ∉ rs) ∧ (c.exceptions = false → Result.badAlloc ∉ rs) := by
  induction ops generalizing s rs with
  | nil => simp only [run] at h; cases h; simp
  | cons op ops ih =>
    simp only [run] at h
    obtain ⟨⟨r, s1⟩, e1, e2⟩ := Outcome.bind_eq_ok.1 h
    obtain ⟨⟨rs', s2⟩, e3, e4⟩ := Outcome.bind_eq_ok.1 e2
    cases e4
    obtain ⟨i1, i2⟩ := ih s1 rs' e3
    have hr : (c.exceptions = true → r ≠ .null) ∧ (c.exceptions = false → r ≠ .badAlloc) := by
      cases op with
      | allocate size k =>
        constructor
        · intro hx e
          subst e
          have := C22_how_it_fails e1 trivial
          simp [hx] at this
        · intro hx e
          subst e
          have := C22_how_it_fails e1 trivial
          simp [hx] at this
      | deallocate p =>
        simp only [exec, deallocate] at e1
        split at e1
        · cases e1; simp
        · split at e1 <;> cases e1
          simp
      | write x v => simp only [exec] at e1; cases e1; simp
    constructor
    · intro hx hm
      rcases List.mem_cons.1 hm with e | hm
      · exact hr.1 hx e.symm
      · exact i1 hx hm
    · intro hx hm
      rcases List.mem_cons.1 hm with e | hm
      · exact hr.2 hx e.symm
      · exact i2 hx hm

example : (match run (exCfg true) (init (exCfg true) (fun _ => 0)) [.allocate 9 0, .allocate 8 0] with
    | .ok (rs, _) => rs | .ub _ => []) = [.badAlloc, .ptr 16] ∧
    exRun [.allocate 9 0, .allocate 8 0] = some [.null, .ptr 16] := by decide

/-! ## C28 -/

/-- What the STL requires: a successful `allocate(n)` yields room for `n` objects of size `sizeT`, for every
`n` up to `max_size()`, in every state. The room a block offers is `sizeofBlock` bytes (the bytes after it
belong to the next block, or to nobody). -/
def C28_Statement : Prop :=
  ∀ (c : Cfg) (sizeT : Nat), c.WF → 0 < sizeT → sizeT ≤ c.blockSize →
  ∀ (s : State) (live : List Nat), History c s live →
  ∀ (n k a : Nat) (s' : State), n ≤ maxSize c → allocate c s n k = .ok (.ptr a, s') →
    n * sizeT ≤ c.sizeofBlock

/-- C28 fails: `allocate(8)` for a four-byte type succeeds with a block of 8 bytes, and the 32 bytes an
STL container would use run into the next blocks. -/
theorem C28_full_statement_fails : ¬ C28_Statement := by
  intro h
  have := (Inv.init (exCfg_wf false) (fun _ => 0)).allocate (exCfg_wf false) 8 0
  obtain ⟨s', e, -, -⟩ := this
  have := h (exCfg false) 4 (exCfg_wf false) (by decide) (by decide) _ _ (.start (fun _ => 0)) 8 0 _ s'
    (by decide) e
  revert this
  decide

/-- C28, the part that holds. (1) A successful `allocate(size)` has `size ≤ BlockSize ≤ sizeofBlock` and
`max_size()` is the exact largest argument that can succeed; (2) there is room for `n` objects exactly when
`n * sizeof(T)` fits the block, hence for one object of every admitted type, and for all `n` up to `max_size()`
when `sizeof(T) = 1`; (3) for bigger types some `n ≤ max_size()` has no room in `BlockSize` bytes. Missing: the
argument would have to be multiplied by `sizeof(T)`. -/
theorem C28_room_partial {c : Cfg} (hc : c.WF) {s : State} {live : List Nat} (h : History c s live)
    (sizeT : Nat) (hfit : sizeT ≤ c.blockSize) :
    (∀ n k a s', allocate c s n k = .ok (.ptr a, s') → n ≤ maxSize c) ∧
    (live.length < c.numBlocks → ∀ n k, n ≤ maxSize c → ∃ a s', allocate c s n k = .ok (.ptr a, s')) ∧
    (sizeT = 1 → ∀ n, n ≤ maxSize c → n * sizeT ≤ c.blockSize) ∧
    1 * sizeT ≤ c.blockSize ∧
    (1 < sizeT → ∃ n, n ≤ maxSize c ∧ c.blockSize < n * sizeT) := by
  have hsucc : ∀ n k, ∃ r s', allocate c s n k = .ok (r, s') ∧
      (Failed r ↔ n > c.blockSize ∨ live.length = c.numBlocks) := by
    intro n k
    obtain ⟨r, s', h1, h2, -, -⟩ := C22_fails_iff hc h n k
    exact ⟨r, s', h1, h2⟩
  refine ⟨?_, ?_, ?_, by omega, ?_⟩
  · intro n k a s' hal
    obtain ⟨r, s2, h1, h2⟩ := hsucc n k
    rw [hal] at h1
    cases h1
    simp only [maxSize]
    have : ¬ (n > c.blockSize ∨ live.length = c.numBlocks) := fun hx => h2.2 hx
    omega
  · intro hl n k hn
    simp only [maxSize] at hn
    obtain ⟨r, s2, h1, h2⟩ := hsucc n k
    cases hr : r with
    | ptr a => rw [hr] at h1; exact ⟨a, s2, h1⟩
    | _ =>
      rw [hr] at h2
      have := h2.1 trivial
      omega
  · intro h1 n hn; simp only [maxSize] at hn; rw [h1]; omega
  · intro h1
    refine ⟨c.blockSize, Nat.le_refl _, ?_⟩
    have := hc.blockSize_pos
    calc c.blockSize < c.blockSize * 2 := by omega
      _ ≤ c.blockSize * sizeT := Nat.mul_le_mul_left _ h1

example : maxSize (exCfg false) = 8 ∧ 2 * 4 ≤ (exCfg false).blockSize ∧ ¬ 3 * 4 ≤ (exCfg false).blockSize := by
  decide

/-! ## C29 -/

/-- The pool calls a program over allocator objects amounts to, forgetting which object was used. -/
def poolCalls : List AllocatorOp → List Op
  | [] => []
  | .allocate _ size sp :: ops => .allocate size sp :: poolCalls ops
  | .deallocate _ p :: ops => .deallocate p :: poolCalls ops
  | _ :: ops => poolCalls ops

/-- The answers of an allocator program to its `allocate` and `deallocate` calls. -/
def callAnswers : List AllocatorOp → List Result → List Result
  | .allocate _ _ _ :: ops, r :: rs => r :: callAnswers ops rs
  | .deallocate _ _ :: ops, r :: rs => r :: callAnswers ops rs
  | _ :: ops, _ :: rs => callAnswers ops rs
  | _, _ => []

/-- Every allocator object is constructed before it is used; `known` are the objects that exist. -/
def WellFormed : List Nat → List AllocatorOp → Prop
  | _, [] => True
  | known, .construct k :: ops => WellFormed (k :: known) ops
  | known, .copyFrom k j :: ops => j ∈ known ∧ WellFormed (k :: known) ops
  | known, .convertFrom k j :: ops => j ∈ known ∧ WellFormed (k :: known) ops
  | known, .allocate k _ _ :: ops => k ∈ known ∧ WellFormed known ops
  | known, .deallocate k _ :: ops => k ∈ known ∧ WellFormed known ops

/-- C29: a program over allocator objects gets the answers, and leaves the one pool in the state, of the same
calls made directly on that pool - whichever objects were used for which call. No other pool is touched. Undefined
behaviour (releasing foreign memory) is the same too. -/
theorem C29_allocators_interchangeable (c : Cfg) (e : AllocatorEnv) (known : List Nat)
    (hknown : ∀ k ∈ known, e.pool_ k = some theStaticPool) (ops : List AllocatorOp) (hw : WellFormed known ops) :
    match run c (e.pools theStaticPool) (poolCalls ops) with
    | .ub u => AllocatorOp.run c e ops = .ub u
    | .ok (rs, s) => ∃ rs' e', AllocatorOp.run c e ops = .ok (rs', e') ∧ callAnswers ops rs' = rs ∧
        e'.pools theStaticPool = s ∧ ∀ q, q ≠ theStaticPool → e'.pools q = e.pools q := by
  induction ops generalizing e known with
  | nil => exact ⟨[], e, rfl, rfl, rfl, fun _ _ => rfl⟩
  | cons op ops ih =>
    have lift : ∀ (e1 : AllocatorEnv) (known1 : List Nat),
        (∀ k ∈ known1, e1.pool_ k = some theStaticPool) → e1.pools = e.pools → WellFormed known1 ops →
        op.exec c e = .ok (.done, e1) → poolCalls (op :: ops) = poolCalls ops →
        (∀ r rs, callAnswers (op :: ops) (r :: rs) = callAnswers ops rs) →
        match run c (e.pools theStaticPool) (poolCalls (op :: ops)) with
        | .ub u => AllocatorOp.run c e (op :: ops) = .ub u
        | .ok (rs, s) => ∃ rs' e', AllocatorOp.run c e (op :: ops) = .ok (rs', e') ∧
            callAnswers (op :: ops) rs' = rs ∧
            e'.pools theStaticPool = s ∧ ∀ q, q ≠ theStaticPool → e'.pools q = e.pools q := by
      intro e1 known1 hk hp hw1 hex hpc hca
      have := ih e1 known1 hk hw1
      rw [hp] at this
      rw [hpc]
      cases hrun : run c (e.pools theStaticPool) (poolCalls ops) with
      | ub u =>
        rw [hrun] at this
        simp only at this ⊢
        simp only [AllocatorOp.run, hex, Outcome.ok_bind, this, Outcome.ub_bind]
      | ok p =>
        obtain ⟨rs, s⟩ := p
        rw [hrun] at this
        obtain ⟨rs', e', h1, h2, h3, h4⟩ := this
        refine ⟨.done :: rs', e', ?_, ?_, h3, h4⟩
        · simp only [AllocatorOp.run, hex, Outcome.ok_bind, h1, Outcome.pure_eq]
        · rw [hca, h2]
    cases op with
    | construct k =>
      refine lift { e with pool_ := fun i => if i = k then some theStaticPool else e.pool_ i }
        (k :: known) ?_ rfl hw rfl rfl (fun _ _ => rfl)
      intro i hi
      simp only
      split
      · rfl
      · rename_i hne
        exact hknown i ((List.mem_cons.1 hi).resolve_left hne)
    | copyFrom k j =>
      refine lift { e with pool_ := fun i => if i = k then e.pool_ j else e.pool_ i }
        (k :: known) ?_ rfl hw.2 rfl rfl (fun _ _ => rfl)
      intro i hi
      simp only
      split
      · exact hknown j hw.1
      · rename_i hne
        exact hknown i ((List.mem_cons.1 hi).resolve_left hne)
    | convertFrom k j =>
      refine lift { e with pool_ := fun i => if i = k then some theStaticPool else e.pool_ i }
        (k :: known) ?_ rfl hw.2 rfl rfl (fun _ _ => rfl)
      intro i hi
      simp only
      split
      · rfl
      · rename_i hne
        exact hknown i ((List.mem_cons.1 hi).resolve_left hne)
    | allocate k size sp =>
      have hk := hknown k hw.1
      simp only [poolCalls, run, exec]
      cases hal : allocate c (e.pools theStaticPool) size sp with
      | ub u => simp [AllocatorOp.run, AllocatorOp.exec, hk, hal]
      | ok p =>
        obtain ⟨r, s1⟩ := p
        have := ih { e with pools := fun q => if q = theStaticPool then s1 else e.pools q } known hknown hw.2
        simp only [if_true] at this
        simp only [Outcome.ok_bind]
        cases hrun : run c s1 (poolCalls ops) with
        | ub u =>
          rw [hrun] at this
          simp only at this
          simp [AllocatorOp.run, AllocatorOp.exec, hk, hal, this]
        | ok p =>
          obtain ⟨rs, s⟩ := p
          rw [hrun] at this
          obtain ⟨rs', e', h1, h2, h3, h4⟩ := this
          refine ⟨r :: rs', e', ?_, ?_, h3, ?_⟩
          · simp [AllocatorOp.run, AllocatorOp.exec, hk, hal, h1]
          · simp only [callAnswers, h2]
          · intro q hq; rw [h4 q hq, if_neg hq]
    | deallocate k p =>
      have hk := hknown k hw.1
      simp only [poolCalls, run, exec]
      cases hal : deallocate c (e.pools theStaticPool) p with
      | ub u => simp [AllocatorOp.run, AllocatorOp.exec, hk, hal]
      | ok p =>
        obtain ⟨r, s1⟩ := p
        have := ih { e with pools := fun q => if q = theStaticPool then s1 else e.pools q } known hknown hw.2
        simp only [if_true] at this
        simp only [Outcome.ok_bind]
        cases hrun : run c s1 (poolCalls ops) with
        | ub u =>
          rw [hrun] at this
          simp only at this
          simp [AllocatorOp.run, AllocatorOp.exec, hk, hal, this]
        | ok p =>
          obtain ⟨rs, s⟩ := p
          rw [hrun] at this
          obtain ⟨rs', e', h1, h2, h3, h4⟩ := this
          refine ⟨r :: rs', e', ?_, ?_, h3, ?_⟩
          · simp [AllocatorOp.run, AllocatorOp.exec, hk, hal, h1]
          · simp only [callAnswers, h2]
          · intro q hq; rw [h4 q hq, if_neg hq]

/-- C29: giving back null changes nothing, in every state whatsoever. -/
theorem C29_null_harmless (c : Cfg) (s : State) : deallocate c s 0 = .ok (.done, s) := by
  simp [deallocate]

example : (match AllocatorOp.run (exCfg false)
      { pools := fun _ => init (exCfg false) (fun _ => 0), pool_ := fun _ => none }
      [.construct 1, .copyFrom 2 1, .convertFrom 3 2, .allocate 1 8 0, .allocate 2 8 0, .deallocate 3 16,
       .allocate 2 8 0] with
    | .ok (rs, _) => rs | .ub _ => []) = [.done, .done, .done, .ptr 16, .ptr 24, .done, .ptr 16] := by decide

end Uavcan.Pool
