import Verif.Spec.Deque
import Verif.Lemmas.PoolQueue

/-!
# C135: queues on the pool allocator
-/

namespace Uavcan.Stl
open Uavcan.Pool Uavcan.Spec

/-- The deque `d` in state `s` has had `n` elements pushed and holds `q`, all in its one buffer `buf`. -/
structure DequeInv (c : Cfg) (t : Nat) (live : List Nat) (mem0 : Mem) (buf : Nat) (s : State) (d : Deque) (n : Nat) (q : List (List Pool.Byte)) : Prop where
  one : d.buffers = [buf]
  own : Own c s (buf :: d.map :: live)
  frame : Frame c live mem0 s.mem
  finish : d.finish = n
  start : d.start + q.length = n
  holds : ∀ i (h : i < q.length), readBytes s.mem (buf + (d.start + i) * t) t = q[i]

/-- A whole buffer does not fit into a block. -/
def Tight (c : Cfg) (t : Nat) : Prop := c.sizeofBlock < dequeBufSize t * t

theorem cap_lt {c : Cfg} {t n : Nat} (ht : 0 < t) (hb : Tight c t) (h : n ≤ c.sizeofBlock / t) : n < dequeBufSize t := by
  have h1 : n * t ≤ c.sizeofBlock := (Nat.le_div_iff_mul_le ht).1 h
  exact Nat.lt_of_mul_lt_mul_right (Nat.lt_of_le_of_lt h1 hb)

section
variable {c : Cfg} {t : Nat} {live : List Nat} {mem0 : Mem} {buf : Nat} {s : State} {d : Deque} {n : Nat} {q : List (List Pool.Byte)}

theorem DequeInv.push (hc : c.WF) (ht : 0 < t) (hb : Tight c t) (h : DequeInv c t live mem0 buf s d n q) {e : List Pool.Byte} (he : e.length = t) (k : Nat)
    (hn : n < c.sizeofBlock / t) : ∃ s' d', dequeStep c t s d (.push e k) = .ok (.done, s', d') ∧ DequeInv c t live mem0 buf s' d' (n + 1) (q ++ [e]) := by
  have hlt := cap_lt ht hb (Nat.succ_le_of_lt hn)
  have hfit : n * t + e.length ≤ c.sizeofBlock := by
    have := (Nat.le_div_iff_mul_le ht).1 (Nat.succ_le_of_lt hn)
    rw [Nat.succ_mul] at this
    omega
  obtain ⟨e1, o1⟩ := h.own.store hc List.mem_cons_self (off := n * t) (bs := e) hfit
  have hlast : d.buffers.getLastD 0 = buf := by rw [h.one]; rfl
  refine ⟨_, { d with finish := n + 1 }, ?_, ⟨h.one, o1, ?_, rfl, ?_, ?_⟩⟩
  · unfold dequeStep
    simp only [h.finish, hlast]
    rw [if_pos (by omega), e1]
    rfl
  · refine h.frame.write (p := buf) (fun b hb' => ?_) fun x hx => writeBytes_other _ _ _ _ (by omega)
    have hnd := (List.nodup_cons.1 (h.own.nodup hc)).1
    exact h.own.disjoint hc List.mem_cons_self (List.mem_cons_of_mem _ (List.mem_cons_of_mem _ hb')) fun e => hnd (e ▸ List.mem_cons_of_mem _ hb')
  · simp only [List.length_append, List.length_singleton]
    have := h.start
    omega
  · intro i hi
    simp only [List.length_append, List.length_singleton] at hi
    have hs := h.start
    by_cases hiq : i < q.length
    · rw [List.getElem_append_left hiq]
      rw [← h.holds i hiq]
      refine readBytes_write_other (.inl ?_)
      have : (d.start + i + 1) * t ≤ n * t := Nat.mul_le_mul_right t (by omega)
      rw [Nat.succ_mul] at this
      show buf + (d.start + i) * t + t ≤ buf + n * t
      omega
    · have : i = q.length := by omega
      subst this
      simp only [List.getElem_append_right (Nat.le_refl _), Nat.sub_self, List.getElem_singleton]
      rw [h.start]
      exact readBytes_writeBytes' he

theorem DequeInv.push_beyond (hc : c.WF) (h : DequeInv c t live mem0 buf s d n q) {e : List Pool.Byte} (he : e.length = t) (k : Nat)
    (hn : ¬ (n + 1) * t ≤ c.sizeofBlock) : (∃ u, dequeStep c t s d (.push e k) = .ub u) ∨ ∃ s', dequeStep c t s d (.push e k) = .ok (.badAlloc, s', d) := by
  have hno : ∀ s : State, store c s buf (n * t) e = .ub .outOfBounds := by
    intro s
    have hp := h.own.pos hc List.mem_cons_self
    unfold store
    rw [if_neg hp, if_neg (by rw [he]; rw [Nat.succ_mul] at hn; exact hn)]
  have hlast : d.buffers.getLastD 0 = buf := by rw [h.one]; rfl
  unfold dequeStep
  simp only [h.finish, hlast]
  split
  · rw [hno]
    exact .inl ⟨_, rfl⟩
  · cases ha : Pool.allocate c s (dequeBufSize t) k with
    | ub u => exact .inl ⟨u, rfl⟩
    | ok r =>
      obtain ⟨r, s1⟩ := r
      simp only [Outcome.ok_bind]
      by_cases hr : r = .badAlloc
      · rw [if_pos hr]
        exact .inr ⟨s1, rfl⟩
      · rw [if_neg hr]
        cases hst : store c s1 d.map ((d.place + 1) * c.ptrSize) (pointerBytes c (ptrOf r)) with
        | ub u => exact .inl ⟨u, rfl⟩
        | ok s2 =>
          simp only [Outcome.ok_bind]
          rw [hno]
          exact .inl ⟨_, rfl⟩

theorem DequeInv.pop (ht : 0 < t) (hb : Tight c t) (h : DequeInv c t live mem0 buf s d n q) (hn : n ≤ c.sizeofBlock / t) :
    (q = [] → dequeStep c t s d .pop = .ub .outOfBounds) ∧
    ∀ e l, q = e :: l → ∃ d', dequeStep c t s d .pop = .ok (.done, s, d') ∧ DequeInv c t live mem0 buf s d' n l := by
  have hlt := cap_lt ht hb hn
  refine ⟨fun hq => ?_, fun e l hq => ?_⟩
  · subst hq
    have hs := h.start
    have hf := h.finish
    simp only [List.length_nil] at hs
    unfold dequeStep
    simp only
    rw [if_pos ⟨by rw [h.one]; exact Nat.le_refl _, by omega⟩]
  · subst hq
    have hs := h.start
    have hf := h.finish
    simp only [List.length_cons] at hs
    refine ⟨{ d with start := d.start + 1 }, ?_, h.one, h.own, h.frame, h.finish, ?_, fun i hi => ?_⟩
    · unfold dequeStep
      simp only
      rw [if_neg (by rintro ⟨-, h⟩; omega), if_pos (by omega)]
    · simp only
      omega
    · have := h.holds (i + 1) (by simp only [List.length_cons]; omega)
      simp only [List.getElem_cons_succ] at this
      rw [← this]
      simp only
      rw [Nat.add_right_comm, Nat.add_assoc]

theorem DequeInv.front (hc : c.WF) (ht : 0 < t) (h : DequeInv c t live mem0 buf s d n q) (hn : n ≤ c.sizeofBlock / t) :
    (q = [] → dequeStep c t s d .front = .ub .outOfBounds) ∧ ∀ e l, q = e :: l → dequeStep c t s d .front = .ok (.value e, s, d) := by
  refine ⟨fun hq => ?_, fun e l hq => ?_⟩
  · subst hq
    have hs := h.start
    have hf := h.finish
    simp only [List.length_nil] at hs
    unfold dequeStep
    simp only
    rw [if_pos ⟨by rw [h.one]; exact Nat.le_refl _, by omega⟩]
  · subst hq
    have hs := h.start
    have hf := h.finish
    simp only [List.length_cons] at hs
    have h1 : (d.start + 1) * t ≤ c.sizeofBlock :=
      Nat.le_trans (Nat.mul_le_mul_right t (by omega)) ((Nat.le_div_iff_mul_le ht).1 hn)
    rw [Nat.succ_mul] at h1
    unfold dequeStep
    simp only
    rw [if_neg (by rintro ⟨-, h⟩; omega), show d.buffers.headD 0 = buf by rw [h.one]; rfl, h.own.load hc List.mem_cons_self h1]
    have := h.holds 0 (by simp)
    simp only [Nat.add_zero, List.getElem_cons_zero] at this
    rw [this]
    rfl

end

theorem Sized.tail {t : Nat} {op : DequeOp} {ops : List DequeOp} (h : Sized t (op :: ops)) : Sized t ops := fun e k hm => h e k (List.mem_cons_of_mem _ hm)

theorem DequeInv.run {c : Cfg} (hc : c.WF) {t : Nat} (ht : 0 < t) (hb : Tight c t) {live : List Nat} {mem0 : Mem} {buf : Nat} (ops : List DequeOp) :
    ∀ {s : State} {d : Deque} {n : Nat} {q : List (List Pool.Byte)}, DequeInv c t live mem0 buf s d n q → Sized t ops → n + pushes ops ≤ c.sizeofBlock / t →
    match fifo ops q with
    | none => dequeRun c t s d ops = .ub .outOfBounds
    | some (as, q') => ∃ s' d', dequeRun c t s d ops = .ok (as, s', d') ∧ DequeInv c t live mem0 buf s' d' (n + pushes ops) q' := by
  induction ops with
  | nil => exact fun h _ _ => ⟨_, _, rfl, h⟩
  | cons op ops ih =>
    intro s d n q h hz hn
    cases op with
    | push e k =>
      have hp : pushes (.push e k :: ops) = pushes ops + 1 := rfl
      rw [hp] at hn ⊢
      obtain ⟨s1, d1, e1, i1⟩ := h.push hc ht hb (hz e k List.mem_cons_self) k (by omega)
      have := ih i1 (Sized.tail hz) (by omega)
      rw [fifo]
      cases hf : fifo ops (q ++ [e]) with
      | none =>
        rw [hf] at this
        simp only [Option.map_none] at this ⊢
        rw [dequeRun, e1]
        simp only [Outcome.ok_bind, this]
        rfl
      | some r =>
        obtain ⟨as, q'⟩ := r
        rw [hf] at this
        simp only [Option.map_some] at this ⊢
        obtain ⟨s', d', e2, i2⟩ := this
        refine ⟨s', d', ?_, by rw [show n + (pushes ops + 1) = n + 1 + pushes ops by omega]; exact i2⟩
        rw [dequeRun, e1]
        simp only [Outcome.ok_bind, e2]
        rfl
    | pop =>
      have hp : pushes (.pop :: ops) = pushes ops := rfl
      rw [hp] at hn ⊢
      obtain ⟨p1, p2⟩ := h.pop ht hb (by omega)
      cases q with
      | nil =>
        rw [fifo]
        simp only
        rw [dequeRun, p1 rfl]
        rfl
      | cons e l =>
        obtain ⟨d1, e1, i1⟩ := p2 e l rfl
        have := ih i1 (Sized.tail hz) hn
        rw [fifo]
        cases hf : fifo ops l with
        | none =>
          rw [hf] at this
          simp only [Option.map_none] at this ⊢
          rw [dequeRun, e1]
          simp only [Outcome.ok_bind, this]
          rfl
        | some r =>
          obtain ⟨as, q'⟩ := r
          rw [hf] at this
          simp only [Option.map_some] at this ⊢
          obtain ⟨s', d', e2, i2⟩ := this
          refine ⟨s', d', ?_, i2⟩
          rw [dequeRun, e1]
          simp only [Outcome.ok_bind, e2]
          rfl
    | front =>
      have hp : pushes (.front :: ops) = pushes ops := rfl
      rw [hp] at hn ⊢
      obtain ⟨p1, p2⟩ := h.front hc ht (by omega)
      cases q with
      | nil =>
        rw [fifo]
        simp only
        rw [dequeRun, p1 rfl]
        rfl
      | cons e l =>
        have e1 := p2 e l rfl
        have := ih h (Sized.tail hz) hn
        rw [fifo]
        cases hf : fifo ops (e :: l) with
        | none =>
          rw [hf] at this
          simp only [Option.map_none] at this ⊢
          rw [dequeRun, e1]
          simp only [Outcome.ok_bind, this]
          rfl
        | some r =>
          obtain ⟨as, q'⟩ := r
          rw [hf] at this
          simp only [Option.map_some] at this ⊢
          obtain ⟨s', d', e2, i2⟩ := this
          refine ⟨s', d', ?_, i2⟩
          rw [dequeRun, e1]
          simp only [Outcome.ok_bind, e2]
          rfl

theorem run_after {c : Cfg} {t : Nat} {s s1 : State} {d d1 : Deque} {op : DequeOp} {a : Answer} (ops : List DequeOp) (e1 : dequeStep c t s d op = .ok (a, s1, d1)) :
    (∃ u, dequeRun c t s d (op :: ops) = .ub u) ∨ ∃ as s' d', dequeRun c t s1 d1 ops = .ok (as, s', d') ∧ dequeRun c t s d (op :: ops) = .ok (a :: as, s', d') := by
  rw [dequeRun, e1]
  simp only [Outcome.ok_bind]
  cases h : dequeRun c t s1 d1 ops with
  | ub u => exact .inl ⟨u, rfl⟩
  | ok r => exact .inr ⟨r.1, r.2.1, r.2.2, rfl, rfl⟩

theorem DequeInv.beyond {c : Cfg} (hc : c.WF) {t : Nat} (ht : 0 < t) (hb : Tight c t) {live : List Nat} {mem0 : Mem} {buf : Nat} (ops : List DequeOp) :
    ∀ {s : State} {d : Deque} {n : Nat} {q : List (List Pool.Byte)}, DequeInv c t live mem0 buf s d n q → Sized t ops → n ≤ c.sizeofBlock / t →
    c.sizeofBlock / t < n + pushes ops →
    (∃ u, dequeRun c t s d ops = .ub u) ∨ ∃ as s' d', dequeRun c t s d ops = .ok (as, s', d') ∧ .badAlloc ∈ as := by
  induction ops with
  | nil => exact fun h _ h1 h2 => absurd h2 (by simp only [pushes, List.filter_nil, List.length_nil]; omega)
  | cons op ops ih =>
    intro s d n q h hz hn hp
    have next : ∀ {a : Answer} {s1 : State} {d1 : Deque} {n1 : Nat} {q1 : List (List Pool.Byte)}, dequeStep c t s d op = .ok (a, s1, d1) → DequeInv c t live mem0 buf s1 d1 n1 q1 →
        n1 ≤ c.sizeofBlock / t → c.sizeofBlock / t < n1 + pushes ops →
        (∃ u, dequeRun c t s d (op :: ops) = .ub u) ∨ ∃ as s' d', dequeRun c t s d (op :: ops) = .ok (as, s', d') ∧ .badAlloc ∈ as := by
      intro a s1 d1 n1 q1 e1 i1 h1 h2
      rcases run_after ops e1 with hu | ⟨as, s', d', r1, r2⟩
      · exact .inl hu
      · rcases ih i1 (Sized.tail hz) h1 h2 with ⟨u, hu⟩ | ⟨as', s'', d'', r1', hm⟩
        · rw [r1] at hu
          cases hu
        · rw [r1] at r1'
          cases r1'
          exact .inr ⟨_, _, _, r2, List.mem_cons_of_mem _ hm⟩
    cases op with
    | push e k =>
      have hpu : pushes (.push e k :: ops) = pushes ops + 1 := rfl
      rw [hpu] at hp
      have he := hz e k List.mem_cons_self
      by_cases hlt : n < c.sizeofBlock / t
      · obtain ⟨s1, d1, e1, i1⟩ := h.push hc ht hb he k hlt
        exact next e1 i1 hlt (by omega)
      · have hfull : ¬ (n + 1) * t ≤ c.sizeofBlock := fun hle => by
          have := (Nat.le_div_iff_mul_le ht).2 hle
          omega
        rcases h.push_beyond hc he k hfull with ⟨u, hu⟩ | ⟨s1, hr⟩
        · refine .inl ⟨u, ?_⟩
          rw [dequeRun, hu]
          rfl
        · rcases run_after ops hr with hu | ⟨as, s', d', -, r2⟩
          · exact .inl hu
          · exact .inr ⟨_, _, _, r2, List.mem_cons_self⟩
    | pop =>
      obtain ⟨p1, p2⟩ := h.pop ht hb hn
      cases q with
      | nil =>
        refine .inl ⟨.outOfBounds, ?_⟩
        rw [dequeRun, p1 rfl]
        rfl
      | cons e l =>
        obtain ⟨d1, e1, i1⟩ := p2 e l rfl
        exact next e1 i1 hn hp
    | front =>
      obtain ⟨p1, p2⟩ := h.front hc ht hn
      cases q with
      | nil =>
        refine .inl ⟨.outOfBounds, ?_⟩
        rw [dequeRun, p1 rfl]
        rfl
      | cons e l => exact next (p2 e l rfl) h hn hp

theorem construct_ok {c : Cfg} (hc : c.WF) {t : Nat} {s : State} {live : List Nat} (h : History c s live) (k1 k2 : Nat) (hb : dequeBufSize t ≤ c.blockSize)
    (h8 : 8 ≤ c.blockSize) (hm : 4 * c.ptrSize ≤ c.sizeofBlock) (hroom : live.length + 2 ≤ c.numBlocks) :
    ∃ d s' buf, dequeConstruct c t s k1 k2 = .ok (some d, s') ∧ DequeInv c t live s.mem buf s' d 0 [] := by
  obtain ⟨m, s1, e1, m1, -, n1, o1⟩ := (Own.of_history h).alloc hc dequeMapSize k1 h8 (by omega)
  obtain ⟨b, s2, e2, m2, -, n2, o2⟩ := o1.alloc hc (dequeBufSize t) k2 hb (by simp only [List.length_cons]; omega)
  have hl : (pointerBytes c b).length = c.ptrSize := by simp [pointerBytes]
  obtain ⟨e3, o3⟩ := o2.store hc (a := m) (by simp) (off := 3 * c.ptrSize) (bs := pointerBytes c b) (by rw [hl]; omega)
  refine ⟨{ map := m, place := 3, buffers := [b], start := 0, finish := 0 }, _, b, ?_, rfl, o3, ?_, rfl, rfl, fun i hi => absurd hi (by simp)⟩
  · unfold dequeConstruct
    rw [e1]
    simp only [Outcome.ok_bind, reduceCtorEq, if_false, ptrOf]
    rw [e2]
    simp only [Outcome.ok_bind, reduceCtorEq, if_false]
    rw [show (dequeMapSize - 1) / 2 = 3 from rfl, e3]
    rfl
  · intro x hx a h1 h2
    have hne : x ≠ m := fun e => n1 (e ▸ hx)
    have := o2.disjoint hc (a := x) (b := m) (by simp [hx]) (by simp) hne
    simp only
    rw [writeBytes_other _ _ _ _ (by rw [hl]; omega), m2, m1]

/-! ## C135 -/

/-- C135: with exceptions, and a pool that has two blocks left, a `std::deque` (or `std::queue`) on the pool allocator is a queue. -/
def C135_Statement : Prop :=
  ∀ (c : Cfg), c.WF → c.exceptions = true → ∀ (t : Nat), 0 < t → ∀ (s : State) (live : List Nat), History c s live → live.length + 2 ≤ c.numBlocks →
    ∀ (ops : List DequeOp) (as : List Answer) (q : List (List Pool.Byte)), Sized t ops → fifo ops [] = some (as, q) →
      ∃ d s1 s2 d2, dequeConstruct c t s 0 0 = .ok (some d, s1) ∧ dequeRun c t s1 d ops = .ok (as, s2, d2)

/-- C135, partial: it is one until so many elements have been queued, in all, as fit into a block; if it can be constructed at all. Other users' blocks are left alone, and the destructor
gives back everything. Missing: any element more, and elements of which the library wants more than `BlockSize` in a buffer. -/
theorem C135_fifo_partial {c : Cfg} (hc : c.WF) {t : Nat} (ht : 0 < t) (hb : Tight c t) {s : State} {live : List Nat} (h : History c s live) (k1 k2 : Nat)
    (hbuf : dequeBufSize t ≤ c.blockSize) (h8 : 8 ≤ c.blockSize) (hm : 4 * c.ptrSize ≤ c.sizeofBlock) (hroom : live.length + 2 ≤ c.numBlocks)
    {ops : List DequeOp} (hz : Sized t ops) (hn : pushes ops ≤ c.sizeofBlock / t) {as : List Answer} {q : List (List Pool.Byte)} (hf : fifo ops [] = some (as, q)) :
    ∃ d s1 s2 d2 s3, dequeConstruct c t s k1 k2 = .ok (some d, s1) ∧ dequeRun c t s1 d ops = .ok (as, s2, d2) ∧ Frame c live s.mem s2.mem ∧
      dequeDestroy c s2 d2 = .ok s3 ∧ Own c s3 live ∧ Frame c live s.mem s3.mem := by
  obtain ⟨d, s1, buf, e1, i1⟩ := construct_ok hc h k1 k2 hbuf h8 hm hroom
  have := i1.run hc ht hb ops hz (by omega)
  rw [hf] at this
  obtain ⟨s2, d2, e2, i2⟩ := this
  obtain ⟨s3, e3, o3, k3⟩ := PoolQueue.deallocateAll_ok hc (L := live) (d2.buffers ++ [d2.map]) s2 (by rw [i2.one]; exact i2.own)
  exact ⟨d, s1, s2, d2, s3, e1, e2, i2.frame, e3, o3, fun b hb' x h1 h2 => by rw [k3 b hb' x h1 h2]; exact i2.frame b hb' x h1 h2⟩

/-- C135, exactly: one element more, whatever has been taken out meanwhile, and the program is undefined or the element refused. -/
theorem C135_limit_partial {c : Cfg} (hc : c.WF) {t : Nat} (ht : 0 < t) (hb : Tight c t) {s : State} {live : List Nat} (h : History c s live) (k1 k2 : Nat)
    (hbuf : dequeBufSize t ≤ c.blockSize) (h8 : 8 ≤ c.blockSize) (hm : 4 * c.ptrSize ≤ c.sizeofBlock) (hroom : live.length + 2 ≤ c.numBlocks)
    {ops : List DequeOp} (hz : Sized t ops) (hn : c.sizeofBlock / t < pushes ops) :
    ∃ d s1, dequeConstruct c t s k1 k2 = .ok (some d, s1) ∧
      ((∃ u, dequeRun c t s1 d ops = .ub u) ∨ ∃ as s2 d2, dequeRun c t s1 d ops = .ok (as, s2, d2) ∧ .badAlloc ∈ as) := by
  obtain ⟨d, s1, buf, e1, i1⟩ := construct_ok hc h k1 k2 hbuf h8 hm hroom
  exact ⟨d, s1, e1, i1.beyond hc ht hb ops hz (Nat.zero_le _) (by omega)⟩

/-- C135: if the library wants more elements in a buffer than `BlockSize`, the deque cannot be constructed, however many blocks there are; nothing is leaked. -/
theorem C135_refused_partial {c : Cfg} (hc : c.WF) (hx : c.exceptions = true) {t : Nat} {s : State} {live : List Nat} (h : History c s live) (k1 k2 : Nat)
    (hbuf : c.blockSize < dequeBufSize t) : ∃ s', dequeConstruct c t s k1 k2 = .ok (none, s') ∧ Own c s' live := by
  by_cases hmap : dequeMapSize ≤ c.blockSize ∧ live.length < c.numBlocks
  · obtain ⟨m, s1, e1, m1, -, n1, o1⟩ := (Own.of_history h).alloc hc dequeMapSize k1 hmap.1 hmap.2
    have e2 := o1.alloc_fails hc (dequeBufSize t) k2 (.inl hbuf)
    obtain ⟨s3, e3, o3, -⟩ := o1.dealloc hc
    refine ⟨s3, ?_, o3⟩
    unfold dequeConstruct
    rw [e1]
    simp only [Outcome.ok_bind, reduceCtorEq, if_false, ptrOf]
    rw [e2]
    simp only [Pool.failure, hx, if_true, Outcome.ok_bind]
    rw [e3]
    rfl
  · have hle := (Own.of_history h).length_le hc
    have e1 := (Own.of_history h).alloc_fails hc dequeMapSize k1 (by omega)
    refine ⟨s, ?_, Own.of_history h⟩
    unfold dequeConstruct
    rw [e1]
    simp only [Pool.failure, hx, if_true, Outcome.ok_bind]
    rfl

/-- C135: a buffer has as many elements as fit into 512 bytes, and one if none does. -/
theorem C135_buffer (t : Nat) (ht : 0 < t) : 1 ≤ dequeBufSize t ∧ (1 < dequeBufSize t → dequeBufSize t * t ≤ 512) ∧ 512 < (dequeBufSize t + 1) * t := by
  unfold dequeBufSize
  split
  · rename_i h
    refine ⟨Nat.div_pos (by omega) ht, fun _ => Nat.div_mul_le_self _ _, ?_⟩
    have h1 := Nat.div_add_mod 512 t
    have h2 := Nat.mod_lt 512 ht
    rw [Nat.succ_mul, Nat.mul_comm]
    omega
  · exact ⟨by omega, by omega, by omega⟩

/-- C135: the hypotheses in numbers. A buffer has more than 256 bytes, whatever the size of an element; a block of the pool has 256 at most, on a PC and on the board; and
of elements of one or two bytes the library wants more than any `BlockSize`. -/
theorem C135_numbers (t : Nat) (ht : 0 < t) : 256 < dequeBufSize t * t ∧ (t ≤ 2 → 255 < dequeBufSize t) ∧
    ∀ (n b base : Nat) (x : Bool), b ≤ 255 → (lp64 n b base x).sizeofBlock ≤ 256 ∧ (ilp32 n b base x).sizeofBlock ≤ 256 := by
  refine ⟨?_, fun h2 => ?_, fun n b base x hb => ⟨?_, ?_⟩⟩
  · unfold dequeBufSize
    split
    · rename_i h
      have h1 := Nat.div_add_mod 512 t
      have h2 := Nat.mod_lt 512 ht
      rw [Nat.mul_comm] at h1
      by_cases h256 : t ≤ 255
      · omega
      · by_cases he : t = 256
        · subst he; decide
        · have : 512 / t = 1 := by
            apply Nat.div_eq_of_lt_le <;> omega
          rw [this]
          omega
    · omega
  · have : t = 1 ∨ t = 2 := by omega
    rcases this with rfl | rfl <;> decide
  · simp only [Cfg.sizeofBlock, lp64, roundUp]
    omega
  · simp only [Cfg.sizeofBlock, ilp32, roundUp]
    omega

theorem fifo_alternate (e : List Pool.Byte) (n : Nat) : fifo ((List.replicate n [DequeOp.push e 0, .pop]).flatten) [] = some (List.replicate (2 * n) .done, []) ∧
    pushes ((List.replicate n [DequeOp.push e 0, .pop]).flatten) = n ∧ ∀ t, e.length = t → Sized t ((List.replicate n [DequeOp.push e 0, .pop]).flatten) := by
  refine ⟨?_, ?_, fun t ht e' k hm => ?_⟩
  · induction n with
    | zero => rfl
    | succ n ih =>
      rw [List.replicate_succ, List.flatten_cons]
      simp only [List.cons_append, List.nil_append, fifo, ih, Option.map_some]
      rfl
  · induction n with
    | zero => rfl
    | succ n ih =>
      rw [List.replicate_succ, List.flatten_cons]
      have : ∀ l : List DequeOp, pushes ([DequeOp.push e 0, .pop] ++ l) = pushes l + 1 := fun l => rfl
      rw [this, ih]
  · obtain ⟨l, hl, hm⟩ := List.mem_flatten.1 hm
    have := List.eq_of_mem_replicate hl
    subst this
    simp only [List.mem_cons, List.not_mem_nil, or_false, DequeOp.push.injEq, reduceCtorEq] at hm
    rw [hm.1, ht]

/-- C135 is false of the code: no more than one element waits at any time, and after as many as fit into one block the next is undefined (or refused); elements of one byte cannot be
queued at all. -/
theorem C135_full_statement_fails : ¬ C135_Statement ∧
    (∀ (n b base : Nat), 2 ≤ n → 8 ≤ b → b ≤ 255 → (lp64 n b base true).WF → ∀ (s : State), History (lp64 n b base true) s [] → ∀ (t : Nat), 0 < t → dequeBufSize t ≤ b → ∀ (e : List Pool.Byte),
      e.length = t → ∃ d s1, dequeConstruct (lp64 n b base true) t s 0 0 = .ok (some d, s1) ∧
        ¬ ∃ s2 d2, dequeRun (lp64 n b base true) t s1 d ((List.replicate 257 [DequeOp.push e 0, .pop]).flatten) = .ok (List.replicate (2 * 257) .done, s2, d2)) := by
  have key : ∀ (n b base : Nat), 2 ≤ n → 8 ≤ b → b ≤ 255 → (lp64 n b base true).WF → ∀ (s : State), History (lp64 n b base true) s [] → ∀ (t : Nat), 0 < t → dequeBufSize t ≤ b →
      ∀ (e : List Pool.Byte), e.length = t → ∃ d s1, dequeConstruct (lp64 n b base true) t s 0 0 = .ok (some d, s1) ∧
        ¬ ∃ s2 d2, dequeRun (lp64 n b base true) t s1 d ((List.replicate 257 [DequeOp.push e 0, .pop]).flatten) = .ok (List.replicate (2 * 257) .done, s2, d2) := by
    intro n b base hn h8 hb hc s h t ht hbuf e he
    obtain ⟨n1, n2, n3⟩ := C135_numbers t ht
    have hs := (n3 n b base true hb).1
    have hfa := fifo_alternate e 257
    obtain ⟨d, s1, e1, hr⟩ := C135_limit_partial hc ht (Nat.lt_of_le_of_lt hs n1) h 0 0 hbuf h8 (by
      simp only [lp64, Cfg.sizeofBlock, roundUp]
      omega) (by show 0 + 2 ≤ n; omega) (hfa.2.2 t he) (by
        rw [hfa.2.1]
        have := Nat.div_le_self (lp64 n b base true).sizeofBlock t
        omega)
    refine ⟨d, s1, e1, ?_⟩
    rintro ⟨s2, d2, hok⟩
    rcases hr with ⟨u, hu⟩ | ⟨as, s2', d2', hok', hm⟩
    · rw [hok] at hu
      cases hu
    · rw [hok] at hok'
      have := (Prod.mk.inj (Outcome.ok.inj hok')).1
      rw [← this] at hm
      have := List.eq_of_mem_replicate hm
      cases this
  refine ⟨fun h => ?_, key⟩
  have hc : (lp64 2 8 0x1000 true).WF := ⟨by decide, by decide, by decide, by decide, by decide, by decide, by decide, by decide⟩
  have h0 : History (lp64 2 8 0x1000 true) (Pool.init (lp64 2 8 0x1000 true) fun _ => 0) [] := .start _
  obtain ⟨d, s1, s2, d2, h1, -⟩ := h _ hc rfl 1 (by decide) _ [] h0 (by decide) [] [] [] (fun e k hm => by cases hm) rfl
  obtain ⟨s', e1, -⟩ := C135_refused_partial hc rfl (t := 1) h0 0 0 (by decide)
  rw [h1] at e1
  cases e1

/-- Numbers of eight bytes, blocks of 64: eight may be queued, the ninth not. -/
example {s : State} {a : Nat} (h : History (lp64 3 64 0x1000 true) s [a]) (x y : List Pool.Byte) (hx : x.length = 8) (hy : y.length = 8) :
    (∃ d s1 s2 d2 s3, dequeConstruct (lp64 3 64 0x1000 true) 8 s 0 2 = .ok (some d, s1) ∧
      dequeRun (lp64 3 64 0x1000 true) 8 s1 d [.push x 0, .push y 1, .front, .pop, .front] = .ok ([.done, .done, .value x, .done, .value y], s2, d2) ∧
      dequeDestroy (lp64 3 64 0x1000 true) s2 d2 = .ok s3 ∧ Own (lp64 3 64 0x1000 true) s3 [a]) ∧
    ∃ d s1, dequeConstruct (lp64 3 64 0x1000 true) 8 s 0 2 = .ok (some d, s1) ∧
      ¬ ∃ s2 d2, dequeRun (lp64 3 64 0x1000 true) 8 s1 d ((List.replicate 9 [DequeOp.push x 0, .pop]).flatten) = .ok (List.replicate 18 .done, s2, d2) := by
  have hc : (lp64 3 64 0x1000 true).WF := ⟨by decide, by decide, by decide, by decide, by decide, by decide, by decide, by decide⟩
  have hb : Tight (lp64 3 64 0x1000 true) 8 := by unfold Tight; decide
  constructor
  · obtain ⟨d, s1, s2, d2, s3, e1, e2, -, e3, o, -⟩ := C135_fifo_partial hc (t := 8) (by decide) hb h 0 2 (by decide) (by decide) (by decide) (Nat.le_refl 3)
      (ops := [.push x 0, .push y 1, .front, .pop, .front]) (fun e k hm => by
        simp only [List.mem_cons, List.not_mem_nil, or_false, DequeOp.push.injEq, reduceCtorEq] at hm
        rcases hm with ⟨rfl, -⟩ | ⟨rfl, -⟩ <;> assumption) (show 2 ≤ _ by decide) rfl
    exact ⟨d, s1, s2, d2, s3, e1, e2, e3, o⟩
  · obtain ⟨d, s1, e1, hr⟩ := C135_limit_partial hc (t := 8) (by decide) hb h 0 2 (by decide) (by decide) (by decide) (Nat.le_refl 3)
      ((fifo_alternate x 9).2.2 8 hx) (by rw [(fifo_alternate x 9).2.1]; decide)
    refine ⟨d, s1, e1, ?_⟩
    rintro ⟨s2, d2, hok⟩
    rcases hr with ⟨u, hu⟩ | ⟨as, s2', d2', hok', hm⟩
    · rw [hok] at hu
      cases hu
    · rw [hok] at hok'
      rw [← (Prod.mk.inj (Outcome.ok.inj hok')).1] at hm
      cases List.eq_of_mem_replicate hm

end Uavcan.Stl
