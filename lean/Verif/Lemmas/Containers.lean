import Verif.Model.Containers
import Verif.Props.Pool

/-!
# Lemmas for containers on the pool
-/

namespace Uavcan.Stl
open Uavcan.Pool Uavcan.Spec

/-- The pool has been used properly so far and exactly the blocks `L` (in any order) are handed out. -/
def Own (c : Cfg) (s : State) (L : List Nat) : Prop := ∃ live, History c s live ∧ live.Perm L

theorem Own.of_history {c : Cfg} {s : State} {live : List Nat} (h : History c s live) : Own c s live := ⟨live, h, .refl _⟩

theorem Own.perm {c : Cfg} {s : State} {L M : List Nat} (h : Own c s L) (hp : L.Perm M) : Own c s M := by
  obtain ⟨live, h1, h2⟩ := h
  exact ⟨live, h1, h2.trans hp⟩

theorem Own.alloc {c : Cfg} (hc : c.WF) {s : State} {L : List Nat} (h : Own c s L) (n k : Nat) (hn : n ≤ c.blockSize)
    (hl : L.length < c.numBlocks) :
    ∃ a s', Pool.allocate c s n k = .ok (.ptr a, s') ∧ s'.mem = s.mem ∧ a ≠ 0 ∧ a ∉ L ∧ Own c s' (a :: L) := by
  obtain ⟨live, h1, h2⟩ := h
  obtain ⟨r, s', e, hf, -, hm⟩ := C22_fails_iff hc h1 n k
  have hlen := h2.length_eq
  have hnf : ¬ Failed r := fun hx => by rcases hf.1 hx with h | h <;> omega
  cases r with
  | ptr a =>
    have := (C21_no_double_vend hc h1).2 n k a s' e
    refine ⟨a, s', e, hm, this.1, fun hx => this.2 (h2.mem_iff.2 hx), ?_⟩
    exact ⟨a :: live, History.call (.allocate n k) h1 trivial e, h2.cons a⟩
  | null => exact absurd trivial hnf
  | badAlloc => exact absurd trivial hnf
  | done => exact absurd trivial hnf

theorem Own.alloc_fails {c : Cfg} (hc : c.WF) {s : State} {L : List Nat} (h : Own c s L) (n k : Nat)
    (hn : n > c.blockSize ∨ L.length = c.numBlocks) : Pool.allocate c s n k = .ok (failure c, s) := by
  obtain ⟨live, h1, h2⟩ := h
  obtain ⟨r, s', e, hf, hs, -⟩ := C22_fails_iff hc h1 n k
  have hx : Failed r := hf.2 (by rw [h2.length_eq]; exact hn)
  have hr := C22_how_it_fails e hx
  rw [e, hs hx, hr]; rfl

theorem Own.dealloc {c : Cfg} (hc : c.WF) {s : State} {a : Nat} {L : List Nat} (h : Own c s (a :: L)) :
    ∃ s', Pool.deallocate c s a = .ok (.done, s') ∧ Own c s' L ∧
      ∀ x, x < a ∨ a + c.sizeofBlock ≤ x → s'.mem x = s.mem x := by
  obtain ⟨live, h1, h2⟩ := h
  have ha : a ∈ live := h2.mem_iff.2 (by simp)
  obtain ⟨free, hi⟩ := h1.inv hc
  obtain ⟨e, -⟩ := hi.deallocate hc ha
  refine ⟨_, e, ⟨live.erase a, History.call (.deallocate a) h1 (.inr ha) e, ?_⟩, ?_⟩
  · have := h2.erase a
    simpa using this
  · intro x hx
    have := hc.sizes
    exact storePtr_other c _ _ _ _ (by omega)

theorem Own.pos {c : Cfg} (hc : c.WF) {s : State} {a : Nat} {L : List Nat} (h : Own c s L) (ha : a ∈ L) : a ≠ 0 := by
  obtain ⟨live, h1, h2⟩ := h
  have := (C21_live_blocks_disjoint hc h1).2.1 a (h2.mem_iff.2 ha)
  omega

theorem Own.nodup {c : Cfg} (hc : c.WF) {s : State} {L : List Nat} (h : Own c s L) : L.Nodup := by
  obtain ⟨live, h1, h2⟩ := h
  exact h2.nodup_iff.1 (C21_live_blocks_disjoint hc h1).1

theorem Own.disjoint {c : Cfg} (hc : c.WF) {s : State} {a b : Nat} {L : List Nat} (h : Own c s L) (ha : a ∈ L) (hb : b ∈ L)
    (hab : a ≠ b) : a + c.sizeofBlock ≤ b ∨ b + c.sizeofBlock ≤ a := by
  obtain ⟨live, h1, h2⟩ := h
  have := (C21_live_blocks_disjoint hc h1).2.2.1 a (h2.mem_iff.2 ha) b (h2.mem_iff.2 hb) hab
  exact this

theorem Own.length_le {c : Cfg} (hc : c.WF) {s : State} {L : List Nat} (h : Own c s L) : L.length ≤ c.numBlocks := by
  obtain ⟨live, h1, h2⟩ := h
  obtain ⟨free, hi⟩ := h1.inv hc
  have := hi.card hc
  have := h2.length_eq
  omega

/-! ## Bytes -/

theorem writeBytes_other (bs : List Byte) : ∀ (mem : Mem) (a x : Nat), x < a ∨ a + bs.length ≤ x → writeBytes mem a bs x = mem x := by
  induction bs with
  | nil => intros; rfl
  | cons b bs ih =>
    intro mem a x h
    simp only [List.length_cons] at h
    simp only [writeBytes]
    rw [ih _ _ _ (by omega), if_neg (by omega)]

theorem writeBytes_at (bs : List Byte) : ∀ (mem : Mem) (a i : Nat) (h : i < bs.length), writeBytes mem a bs (a + i) = bs[i] := by
  induction bs with
  | nil => intro mem a i h; cases h
  | cons b bs ih =>
    intro mem a i h
    simp only [writeBytes]
    cases i with
    | zero => rw [writeBytes_other _ _ _ _ (by omega)]; simp
    | succ i =>
      have := ih (fun x => if x = a then b else mem x) (a + 1) i (by simpa using h)
      rw [show a + (i + 1) = a + 1 + i by omega, this]
      rfl

theorem readBytes_length (mem : Mem) (a n : Nat) : (readBytes mem a n).length = n := by simp [readBytes]

theorem readBytes_congr {m1 m2 : Mem} {a n : Nat} (h : ∀ x, a ≤ x → x < a + n → m1 x = m2 x) : readBytes m1 a n = readBytes m2 a n := by
  simp only [readBytes]
  refine List.map_congr_left ?_
  intro i hi
  simp only [List.mem_range] at hi
  exact h _ (by omega) (by omega)

theorem readBytes_append (mem : Mem) (a m n : Nat) : readBytes mem a (m + n) = readBytes mem a m ++ readBytes mem (a + m) n := by
  simp only [readBytes, List.range_add, List.map_append, List.map_map]
  congr 1
  refine List.map_congr_left ?_
  intro i _
  simp [Nat.add_assoc]

theorem readBytes_writeBytes (mem : Mem) (a : Nat) (bs : List Byte) : readBytes (writeBytes mem a bs) a bs.length = bs := by
  refine List.ext_getElem (by simp [readBytes]) ?_
  intro i h1 h2
  simp only [readBytes, List.getElem_map, List.getElem_range]
  exact writeBytes_at bs mem a i h2

theorem readBytes_writeBytes' {mem : Mem} {a n : Nat} {bs : List Byte} (h : bs.length = n) :
    readBytes (writeBytes mem a bs) a n = bs := by subst h; exact readBytes_writeBytes mem a bs

theorem readBytes_write_other {mem : Mem} {a n p : Nat} {bs : List Byte} (h : a + n ≤ p ∨ p + bs.length ≤ a) :
    readBytes (writeBytes mem p bs) a n = readBytes mem a n :=
  readBytes_congr fun x h1 h2 => writeBytes_other bs mem p x (by omega)

theorem writeBytes_append (bs cs : List Byte) : ∀ (mem : Mem) (a : Nat),
    writeBytes mem a (bs ++ cs) = writeBytes (writeBytes mem a bs) (a + bs.length) cs := by
  induction bs with
  | nil => intros; rfl
  | cons b bs ih =>
    intro mem a
    simp only [List.cons_append, writeBytes, ih, List.length_cons]
    rw [show a + 1 + bs.length = a + (bs.length + 1) by omega]

theorem History.writeBytes {c : Cfg} {live : List Nat} {b : Nat} (hb : b ∈ live) (bs : List Byte) :
    ∀ (s : State) (a : Nat), History c s live → b ≤ a → a + bs.length ≤ b + c.sizeofBlock →
      History c { s with mem := Stl.writeBytes s.mem a bs } live := by
  induction bs with
  | nil => intro s a h _ _; exact h
  | cons x bs ih =>
    intro s a h h1 h2
    simp only [List.length_cons] at h2
    have := History.call (.write a x) h ⟨b, hb, h1, by omega⟩ rfl
    exact ih _ (a + 1) this (by omega) (by omega)

theorem Own.store {c : Cfg} (hc : c.WF) {s : State} {a : Nat} {L : List Nat} (h : Own c s L) (ha : a ∈ L) {off : Nat} {bs : List Byte}
    (hr : off + bs.length ≤ c.sizeofBlock) :
    Stl.store c s a off bs = .ok { s with mem := writeBytes s.mem (a + off) bs } ∧
      Own c { s with mem := writeBytes s.mem (a + off) bs } L := by
  have hp := h.pos hc ha
  obtain ⟨live, h1, h2⟩ := h
  refine ⟨by simp only [Stl.store, if_neg hp, if_pos hr], ⟨live, ?_, h2⟩⟩
  exact History.writeBytes (h2.mem_iff.2 ha) bs s (a + off) h1 (by omega) (by omega)

theorem Own.load {c : Cfg} (hc : c.WF) {s : State} {a : Nat} {L : List Nat} (h : Own c s L) (ha : a ∈ L) {off n : Nat}
    (hr : off + n ≤ c.sizeofBlock) : Stl.load c s a off n = .ok (readBytes s.mem (a + off) n) := by
  simp only [Stl.load, if_neg (h.pos hc ha), if_pos hr]

/-- The bytes of the blocks `live` are those they were in `mem0`. -/
def Frame (c : Cfg) (live : List Nat) (mem0 mem : Mem) : Prop :=
  ∀ b ∈ live, ∀ x, b ≤ x → x < b + c.sizeofBlock → mem x = mem0 x

theorem Frame.write {c : Cfg} {live : List Nat} {mem0 mem mem' : Mem} {p : Nat} (h : Frame c live mem0 mem)
    (hd : ∀ b ∈ live, p + c.sizeofBlock ≤ b ∨ b + c.sizeofBlock ≤ p)
    (hm : ∀ x, x < p ∨ p + c.sizeofBlock ≤ x → mem' x = mem x) : Frame c live mem0 mem' := by
  intro b hb x h1 h2
  rw [hm x (by have := hd b hb; omega)]
  exact h b hb x h1 h2

/-! ## Vector -/

/-- The block the vector holds, if any. -/
def Vec.blocks (v : Vec) : List Nat := if v.start = 0 then [] else [v.start]

/-- `v` in state `s` holds the elements `l`, of `t` bytes each; `live` and `mem0` are the blocks of other users and their contents. -/
structure VecInv (c : Cfg) (t : Nat) (live : List Nat) (mem0 : Mem) (s : State) (v : Vec) (l : List (List Byte)) : Prop where
  own : Own c s (v.blocks ++ live)
  frame : Frame c live mem0 s.mem
  cap_le : v.cap ≤ c.blockSize
  size_le : v.size ≤ v.cap
  start_cap : v.start = 0 → v.cap = 0
  cap_start : v.cap = 0 → v.start = 0
  len : l.length = v.size
  elems : ∀ e ∈ l, e.length = t
  bytes : readBytes s.mem v.start (v.size * t) = l.flatten

theorem flatten_length {t : Nat} (l : List (List Byte)) (h : ∀ e ∈ l, e.length = t) : l.flatten.length = l.length * t := by
  induction l with
  | nil => simp
  | cons e l ih =>
    rw [List.flatten_cons, List.length_append, ih (fun x hx => h x (by simp [hx])), h e (by simp), List.length_cons, Nat.add_mul]
    omega

theorem readBytes_element {mem : Mem} {t : Nat} (l : List (List Byte)) : ∀ (a : Nat), (∀ e ∈ l, e.length = t) →
    readBytes mem a (l.length * t) = l.flatten → ∀ (i : Nat) (hi : i < l.length), readBytes mem (a + i * t) t = l[i] := by
  induction l with
  | nil => intro a _ _ i hi; cases hi
  | cons e l ih =>
    intro a h hb i hi
    have he : e.length = t := h e (by simp)
    rw [List.length_cons, Nat.add_mul, Nat.one_mul, Nat.add_comm (l.length * t) t, readBytes_append, List.flatten_cons] at hb
    have := List.append_inj hb (by rw [readBytes_length, he])
    cases i with
    | zero => simpa using this.1
    | succ i =>
      have := ih (a + t) (fun x hx => h x (by simp [hx])) this.2 i (by simpa using hi)
      rw [show a + (i + 1) * t = a + t + i * t by rw [Nat.add_mul]; omega]
      exact this

theorem Vec.blocks_mem {v : Vec} (h : v.start ≠ 0) : v.start ∈ v.blocks := by simp [Vec.blocks, h]

theorem Vec.blocks_eq {v : Vec} (h : v.start ≠ 0) : v.blocks = [v.start] := by simp [Vec.blocks, h]

theorem Vec.blocks_nil {v : Vec} (h : v.start = 0) : v.blocks = [] := by simp [Vec.blocks, h]

/-- Giving back the old array, whether there is one or not. -/
theorem Own.dealloc_vec {c : Cfg} (hc : c.WF) {s : State} {v : Vec} {L : List Nat} (h : Own c s (v.blocks ++ L)) :
    ∃ r s', Pool.deallocate c s v.start = .ok (r, s') ∧ Own c s' L ∧
      ∀ b ∈ L, ∀ x, b ≤ x → x < b + c.sizeofBlock → s'.mem x = s.mem x := by
  by_cases h0 : v.start = 0
  · refine ⟨.done, s, by simp [Pool.deallocate, h0], by simpa [Vec.blocks_nil h0] using h, fun _ _ _ _ _ => rfl⟩
  · rw [Vec.blocks_eq h0] at h
    obtain ⟨s', h1, h2, h3⟩ := Own.dealloc hc h
    refine ⟨_, s', h1, h2, ?_⟩
    intro b hb x hx1 hx2
    have hn := h.nodup hc
    simp only [List.singleton_append, List.nodup_cons] at hn
    have := h.disjoint hc (a := v.start) (b := b) (by simp) (by simp [hb]) (fun e => hn.1 (e ▸ hb))
    exact h3 x (by omega)

theorem VecInv.start_ne {c : Cfg} {t : Nat} {live : List Nat} {mem0 : Mem} {s : State} {v : Vec} {l : List (List Byte)}
    (h : VecInv c t live mem0 s v l) (hs : 0 < v.cap) : v.start ≠ 0 := fun e => by have := h.start_cap e; omega

theorem VecInv.blocks_length {c : Cfg} {t : Nat} {live : List Nat} {mem0 : Mem} {s : State} {v : Vec} {l : List (List Byte)}
    (h : VecInv c t live mem0 s v l) : v.blocks.length = if v.cap = 0 then 0 else 1 := by
  have h1 := h.start_cap
  have h2 := h.cap_start
  simp only [Vec.blocks]
  split <;> split <;> simp_all

theorem VecInv.reallocate {c : Cfg} (hc : c.WF) {ty : VecTy} {live : List Nat} {mem0 : Mem} {s : State} {v : Vec}
    {l : List (List Byte)} (h : VecInv c ty.sizeT live mem0 s v l)
    (newCap k : Nat) (hfree : newCap = 0 ∨ (v.blocks ++ live).length < c.numBlocks) (extra : Option (List Byte)) (he : ∀ e, extra = some e → e.length = ty.sizeT)
    (h1 : v.size + (if extra.isSome then 1 else 0) ≤ newCap) (h2 : newCap ≤ c.blockSize)
    (hroom : newCap * ty.sizeT ≤ c.sizeofBlock) :
    ∃ s' v', Stl.reallocate c ty s v newCap k extra = .ok (.done, s', v') ∧
      VecInv c ty.sizeT live mem0 s' v' (l ++ extra.toList) ∧ v'.cap = newCap := by
  by_cases h0 : newCap = 0
  · subst h0
    have hs0 : v.size = 0 := by omega
    have hx : extra = none := by cases extra with | none => rfl | some e => simp at h1
    subst hx
    obtain ⟨r, s', e1, e2, e3⟩ := Own.dealloc_vec hc h.own
    refine ⟨s', ⟨0, v.size, 0⟩, ?_, ?_, rfl⟩
    · simp [Stl.reallocate, vecAllocate, constructExtra, moveElements, hs0, e1, ptrOf]
    · refine ⟨by simpa [Vec.blocks] using e2, ?_, by simp, by simp [hs0], by simp, by simp, by simpa using h.len, by simpa using h.elems, ?_⟩
      · intro b hb x hx1 hx2
        rw [e3 b hb x hx1 hx2]; exact h.frame b hb x hx1 hx2
      · have : l = [] := List.eq_nil_of_length_eq_zero (by rw [h.len, hs0])
        simp [this, hs0, readBytes]
  · have hlen : (v.blocks ++ live).length < c.numBlocks := hfree.resolve_left h0
    obtain ⟨p, s1, e1, m1, p0, pn, o1⟩ := h.own.alloc hc newCap k h2 hlen
    -- the new array's block is apart from all others
    have hdis : ∀ b ∈ v.blocks ++ live, p + c.sizeofBlock ≤ b ∨ b + c.sizeofBlock ≤ p := by
      intro b hb
      exact o1.disjoint hc (by simp) (by simp only [List.mem_cons]; exact .inr hb) (fun e => pn (e ▸ hb))
    have hsz : v.size * ty.sizeT ≤ newCap * ty.sizeT := Nat.mul_le_mul_right _ (by omega)
    -- the new element
    obtain ⟨s2, e2, o2, f2, b2, hd2⟩ : ∃ s2, constructExtra c ty s1 v p extra = .ok s2 ∧ Own c s2 (p :: (v.blocks ++ live)) ∧
          (∀ x, x < p ∨ p + c.sizeofBlock ≤ x → s2.mem x = s.mem x) ∧
          readBytes s2.mem (p + v.size * ty.sizeT) ((extra.toList).length * ty.sizeT) = (extra.toList).flatten ∧ True := by
      cases extra with
      | none => exact ⟨s1, rfl, o1, fun x _ => by rw [m1], by simp [readBytes], trivial⟩
      | some e =>
        have hl := he e rfl
        have hr : v.size * ty.sizeT + e.length ≤ c.sizeofBlock := by
          have : (v.size + 1) * ty.sizeT ≤ newCap * ty.sizeT := Nat.mul_le_mul_right _ (by simpa using h1)
          rw [Nat.add_mul] at this; omega
        obtain ⟨a1, a2⟩ := o1.store hc (a := p) (by simp) hr
        refine ⟨_, a1, a2, ?_, ?_, trivial⟩
        · intro x hx
          show Stl.writeBytes s1.mem _ e x = _
          rw [writeBytes_other _ _ _ _ (by omega), m1]
        · simp only [Option.toList_some, List.length_cons, List.length_nil, Nat.zero_add, Nat.one_mul, List.flatten_cons, List.flatten_nil,
            List.append_nil]
          exact readBytes_writeBytes' hl
    -- the old elements
    obtain ⟨s3, e3, o3, f3, b3⟩ : ∃ s3, moveElements c ty s2 v p = .ok s3 ∧ Own c s3 (p :: (v.blocks ++ live)) ∧
          (∀ x, x < p ∨ p + c.sizeofBlock ≤ x → s3.mem x = s.mem x) ∧
          readBytes s3.mem p ((v.size + (extra.toList).length) * ty.sizeT) = l.flatten ++ (extra.toList).flatten := by
      simp only [moveElements]
      by_cases hs0 : v.size = 0
      · rw [if_pos hs0]
        have : l = [] := List.eq_nil_of_length_eq_zero (by rw [h.len, hs0])
        refine ⟨s2, rfl, o2, f2, ?_⟩
        rw [hs0, Nat.zero_mul] at b2
        simpa [hs0, this] using b2
      · have hst : v.start ≠ 0 := h.start_ne (by have := h.size_le; omega)
        have hm : v.start ∈ p :: (v.blocks ++ live) := by simp [Vec.blocks_mem hst]
        rw [if_neg hs0, o2.load hc hm (by omega)]
        have hold : readBytes s2.mem v.start (v.size * ty.sizeT) = l.flatten := by
          rw [← h.bytes]
          refine readBytes_congr fun x hx1 hx2 => f2 x ?_
          have := hdis v.start (by simp [Vec.blocks_mem hst])
          omega
        have hlen2 : (readBytes s2.mem (v.start + 0) (v.size * ty.sizeT)).length = v.size * ty.sizeT := readBytes_length _ _ _
        obtain ⟨a1, a2⟩ := o2.store hc (a := p) (off := 0) (bs := readBytes s2.mem (v.start + 0) (v.size * ty.sizeT)) (by simp)
          (by rw [hlen2]; omega)
        refine ⟨_, by rw [Outcome.ok_bind]; exact a1, a2, ?_, ?_⟩
        · intro x hx
          show Stl.writeBytes s2.mem _ _ x = _
          rw [writeBytes_other _ _ _ _ (by rw [hlen2]; omega), f2 x hx]
        · rw [Nat.add_mul, readBytes_append]
          congr 1
          · show readBytes (Stl.writeBytes _ _ _) _ _ = _
            rw [Nat.add_zero, Nat.add_zero, readBytes_writeBytes' (readBytes_length _ _ _), hold]
          · rw [← b2]
            exact readBytes_write_other (by rw [hlen2]; omega)
    -- giving back the old array
    have hperm : (p :: (v.blocks ++ live)).Perm (v.blocks ++ p :: live) := List.perm_middle.symm
    obtain ⟨r, s4, e4, o4, f4⟩ := Own.dealloc_vec hc (o3.perm hperm)
    refine ⟨s4, ⟨p, v.size + (if extra.isSome then 1 else 0), newCap⟩, ?_, ?_, rfl⟩
    · simp only [Stl.reallocate, vecAllocate, if_neg h0, e1, Outcome.ok_bind, ptrOf]
      rw [if_neg (by simp), e2]
      simp only [Outcome.ok_bind, e3, e4, Outcome.pure_eq]
    · have hcnt : v.size + (if extra.isSome then 1 else 0) = v.size + (extra.toList).length := by cases extra <;> simp
      refine ⟨?_, ?_, h2, h1, fun e => absurd e p0, fun e => absurd e h0, ?_, ?_, ?_⟩
      · simpa [Vec.blocks, p0] using o4
      · intro b hb x hx1 hx2
        rw [f4 b (by simp [hb]) x hx1 hx2, f3 x (by have := hdis b (by simp [hb]); omega)]
        exact h.frame b hb x hx1 hx2
      · rw [List.length_append, h.len]; exact hcnt.symm
      · intro e hm
        rcases List.mem_append.1 hm with hm | hm
        · exact h.elems e hm
        · exact he e (by simpa using hm)
      · show readBytes s4.mem p ((v.size + if extra.isSome then 1 else 0) * ty.sizeT) = _
        rw [hcnt, List.flatten_append, ← b3]
        refine readBytes_congr fun x hx1 hx2 => f4 p (by simp) x hx1 ?_
        have : (v.size + (extra.toList).length) * ty.sizeT ≤ newCap * ty.sizeT := Nat.mul_le_mul_right _ (by omega)
        omega

theorem VecInv.reallocate_fails {c : Cfg} (hc : c.WF) {ty : VecTy} {live : List Nat} {mem0 : Mem} {s : State} {v : Vec}
    {l : List (List Byte)} (h : VecInv c ty.sizeT live mem0 s v l) (hx : c.exceptions = true)
    (newCap k : Nat) (h0 : newCap ≠ 0) (hfull : (v.blocks ++ live).length = c.numBlocks) (extra : Option (List Byte)) :
    Stl.reallocate c ty s v newCap k extra = .ok (.badAlloc, s, v) := by
  simp [Stl.reallocate, vecAllocate, h0, h.own.alloc_fails hc newCap k (.inr hfull), Pool.failure, hx]

/-! ## Map -/

/-- The block of the bucket array, if there is one. -/
def Map.arrayBlocks (m : Map) : List Nat := if m.buckets = 0 then [] else [m.buckets]

/-- The keys and values of the nodes, as found in memory. -/
def Map.contents (c : Cfg) (ty : MapTy) (mem : Mem) (m : Map) : List (List Byte × List Byte) :=
  m.nodes.map fun a => (keyAt c ty mem a, valueAt c ty mem a)

/-- The map `m` in state `s` holds `kv`; `live` and `mem0` are the blocks of other users and their contents. -/
structure MapInv (c : Cfg) (ty : MapTy) (live : List Nat) (mem0 : Mem) (s : State) (m : Map) (kv : List (List Byte × List Byte)) :
    Prop where
  own : Own c s (m.arrayBlocks ++ (m.nodes ++ live))
  frame : Frame c live mem0 s.mem
  contents : m.contents c ty s.mem = kv
  keys : (kv.map (·.1)).Nodup

theorem Own.dealloc_array {c : Cfg} (hc : c.WF) {s : State} {m : Map} {L : List Nat} (h : Own c s (m.arrayBlocks ++ L)) :
    ∃ r s', Pool.deallocate c s m.buckets = .ok (r, s') ∧ Own c s' L ∧
      ∀ b ∈ L, ∀ x, b ≤ x → x < b + c.sizeofBlock → s'.mem x = s.mem x :=
  Own.dealloc_vec (v := ⟨m.buckets, 0, 0⟩) hc h

theorem node_congr {c : Cfg} {ty : MapTy} (hnode : c.ptrSize + ty.sizeK + ty.sizeV ≤ c.sizeofBlock) {m1 m2 : Mem} {a : Nat}
    (h : ∀ x, a ≤ x → x < a + c.sizeofBlock → m1 x = m2 x) :
    keyAt c ty m1 a = keyAt c ty m2 a ∧ valueAt c ty m1 a = valueAt c ty m2 a :=
  ⟨readBytes_congr fun x h1 h2 => h x (by omega) (by omega), readBytes_congr fun x h1 h2 => h x (by omega) (by omega)⟩

theorem contents_congr {c : Cfg} {ty : MapTy} (hnode : c.ptrSize + ty.sizeK + ty.sizeV ≤ c.sizeofBlock) {m1 m2 : Mem} {m : Map}
    (h : ∀ a ∈ m.nodes, ∀ x, a ≤ x → x < a + c.sizeofBlock → m1 x = m2 x) : m.contents c ty m1 = m.contents c ty m2 := by
  refine List.map_congr_left ?_
  intro a ha
  have := node_congr hnode (h a ha)
  rw [this.1, this.2]

/-- What is found is a node of the map with that key, and what is not found is not there. -/
theorem findNode_some {c : Cfg} {ty : MapTy} {s : State} {m : Map} {key : List Byte} {a : Nat} (h : findNode c ty s m key = some a) :
    a ∈ m.nodes ∧ keyAt c ty s.mem a = key := by
  refine ⟨List.mem_of_find?_eq_some h, ?_⟩
  have := List.find?_some h
  simpa using this

theorem findNode_none {c : Cfg} {ty : MapTy} {s : State} {m : Map} {key : List Byte} (h : findNode c ty s m key = none) :
    key ∉ (m.contents c ty s.mem).map (·.1) := by
  intro hm
  simp only [Map.contents, List.map_map, List.mem_map, Function.comp] at hm
  obtain ⟨a, ha, rfl⟩ := hm
  have := List.find?_eq_none.1 h a ha
  simp at this

/-- A node is determined by its key. -/
theorem MapInv.node_unique {c : Cfg} {ty : MapTy} {live : List Nat} {mem0 : Mem} {s : State} {m : Map} {kv : List (List Byte × List Byte)}
    (h : MapInv c ty live mem0 s m kv) {a b : Nat} (ha : a ∈ m.nodes) (hb : b ∈ m.nodes)
    (hk : keyAt c ty s.mem a = keyAt c ty s.mem b) : a = b := by
  have hn := h.keys
  rw [← h.contents] at hn
  simp only [Map.contents, List.map_map] at hn
  clear h
  revert ha hb hn
  generalize m.nodes = l
  intro ha hb hn
  induction l with
  | nil => cases ha
  | cons x l ih =>
    simp only [List.map_cons, List.nodup_cons, List.mem_map, Function.comp] at hn
    rcases List.mem_cons.1 ha with ea | ha' <;> rcases List.mem_cons.1 hb with eb | hb'
    · rw [ea, eb]
    · exact absurd ⟨b, hb', by rw [← hk, ea]⟩ hn.1
    · exact absurd ⟨a, ha', by rw [hk, eb]⟩ hn.1
    · exact ih ha' hb' hn.2

theorem MapInv.find {c : Cfg} {ty : MapTy} {live : List Nat} {mem0 : Mem} {s : State} {m : Map} {kv : List (List Byte × List Byte)}
    (h : MapInv c ty live mem0 s m kv) (key : List Byte) :
    (kv.find? fun p => p.1 == key) = (findNode c ty s m key).map fun a => (keyAt c ty s.mem a, valueAt c ty s.mem a) := by
  rw [← h.contents]
  simp only [Map.contents, List.find?_map, findNode, Function.comp_def]

theorem mapRehash_ok {c : Cfg} (hc : c.WF) {s : State} {m : Map} {L : List Nat} (h : Own c s (m.arrayBlocks ++ L)) (n k : Nat)
    (h1 : n ≤ c.blockSize) (h2 : n * c.ptrSize ≤ c.sizeofBlock) (h3 : (m.arrayBlocks ++ L).length < c.numBlocks) :
    ∃ s' p, mapRehash c s m n k = .ok (true, s', { m with buckets := p, bucketCount := n }) ∧ p ≠ 0 ∧ Own c s' (p :: L) ∧
      ∀ b ∈ L, ∀ x, b ≤ x → x < b + c.sizeofBlock → s'.mem x = s.mem x := by
  obtain ⟨p, s1, e1, m1, p0, pn, o1⟩ := h.alloc hc n k h1 h3
  obtain ⟨e2, o2⟩ := o1.store hc (a := p) (off := 0) (bs := List.replicate (n * c.ptrSize) 0) (by simp)
    (by simpa using h2)
  have hperm : (p :: (m.arrayBlocks ++ L)).Perm (m.arrayBlocks ++ p :: L) := List.perm_middle.symm
  obtain ⟨r, s3, e3, o3, f3⟩ := Own.dealloc_array hc (o2.perm hperm)
  refine ⟨s3, p, ?_, p0, o3, ?_⟩
  · simp only [mapRehash, e1, Outcome.ok_bind, ptrOf, e2, e3, Outcome.pure_eq]
    rw [if_neg (by simp)]
  · intro b hb x hx1 hx2
    rw [f3 b (by simp [hb]) x hx1 hx2]
    show writeBytes s1.mem _ _ x = _
    have := o1.disjoint hc (a := p) (b := b) (by simp) (by simp [hb]) (fun e => pn (by simp [e, hb]))
    rw [writeBytes_other _ _ _ _ (by simp; omega), m1]

theorem mapRehash_refused {c : Cfg} (hc : c.WF) {s : State} {m : Map} {L : List Nat} (h : Own c s (m.arrayBlocks ++ L)) (n k : Nat)
    (hn : n > c.blockSize ∨ (m.arrayBlocks ++ L).length = c.numBlocks) :
    mapRehash c s m n k = if c.exceptions then .ok (false, s, m) else .ub .nullDeref := by
  have hf := h.alloc_fails hc n k hn
  cases hx : c.exceptions <;> simp [mapRehash, hf, Pool.failure, hx, ptrOf, store]

theorem mapRehash_trap {c : Cfg} (hc : c.WF) {s : State} {m : Map} {L : List Nat} (h : Own c s (m.arrayBlocks ++ L)) (n k : Nat)
    (hn : n ≤ c.blockSize) (hl : (m.arrayBlocks ++ L).length < c.numBlocks) (hbig : ¬ n * c.ptrSize ≤ c.sizeofBlock) :
    mapRehash c s m n k = .ub .outOfBounds := by
  obtain ⟨p, s1, e1, m1, p0, pn, o1⟩ := h.alloc hc n k hn hl
  simp only [mapRehash, e1, Outcome.ok_bind, ptrOf]
  rw [if_neg (by simp)]
  simp [store, p0, hbig]

/-- There is room for another element: a block for the node and, if the policy asks for more buckets, another block while the
old ones are still there, and that many buckets are acceptable. `free` is the number of blocks not held by others, `array` says whether the map holds
a bucket array. -/
def Fits (accept : Nat → Prop) (ty : MapTy) (free elements buckets : Nat) (array : Bool) : Prop :=
  match ty.rehash buckets elements with
  | none => elements + array.toNat + 1 ≤ free
  | some n => elements + array.toNat + 2 ≤ free ∧ accept n

/-- The allocator accepts the request (memory.hpp 142). -/
def granted (c : Cfg) (n : Nat) : Prop := n ≤ c.blockSize

/-- The allocator accepts the request, and `n` pointers do fit into a block. -/
def roomy (c : Cfg) (n : Nat) : Prop := n ≤ c.blockSize ∧ n * c.ptrSize ≤ c.sizeofBlock

instance {accept : Nat → Prop} [DecidablePred accept] (ty : MapTy) (free elements buckets : Nat) (array : Bool) :
    Decidable (Fits accept ty free elements buckets array) := by
  unfold Fits; split <;> infer_instance

instance (c : Cfg) : DecidablePred (granted c) := fun n => inferInstanceAs (Decidable (n ≤ c.blockSize))

instance (c : Cfg) : DecidablePred (roomy c) := fun n => inferInstanceAs (Decidable (n ≤ c.blockSize ∧ n * c.ptrSize ≤ c.sizeofBlock))

/-- Whether the map holds a bucket array. -/
def Map.hasArray (m : Map) : Bool := m.buckets != 0

theorem Map.arrayBlocks_length (m : Map) : m.arrayBlocks.length = m.hasArray.toNat := by
  simp only [Map.arrayBlocks, Map.hasArray]
  by_cases h : m.buckets = 0
  · simp [h]
  · have : (m.buckets != 0) = true := by simpa using h
    simp [h, this]

theorem MapInv.insertNew_ok {c : Cfg} (hc : c.WF) {ty : MapTy} (hnode : c.ptrSize + ty.sizeK + ty.sizeV ≤ c.sizeofBlock)
    {live : List Nat} {mem0 : Mem} {s : State} {m : Map} {kv : List (List Byte × List Byte)}
    (h : MapInv c ty live mem0 s m kv) (key : List Byte) (hk : key.length = ty.sizeK) (hnew : key ∉ kv.map (·.1)) (k1 k2 : Nat)
    (hfit : Fits (roomy c) ty (c.numBlocks - live.length) kv.length m.bucketCount m.hasArray) :
    ∃ a s' m', insertNew c ty s m key k1 k2 = .ok (some a, s', m') ∧
      MapInv c ty live mem0 s' m' ((key, List.replicate ty.sizeV 0) :: kv) ∧ a ∈ m'.nodes ∧ keyAt c ty s'.mem a = key ∧
      m'.bucketCount = (ty.rehash m.bucketCount kv.length).getD m.bucketCount ∧
      m'.hasArray = (m.hasArray || (ty.rehash m.bucketCount kv.length).isSome) := by
  have hlen : kv.length = m.nodes.length := by rw [← h.contents]; simp [Map.contents]
  have hal := m.arrayBlocks_length
  have hL : (m.arrayBlocks ++ (m.nodes ++ live)).length = m.hasArray.toNat + (kv.length + live.length) := by
    simp [hal, hlen]
  have hfit1 : kv.length + m.hasArray.toNat + 1 ≤ c.numBlocks - live.length := by
    simp only [Fits] at hfit; split at hfit <;> omega
  have hbs := hc.blockSize_pos
  obtain ⟨a, s1, e1, m1, a0, an, o1⟩ := h.own.alloc hc 1 k1 (by omega) (by omega)
  have hdis : ∀ b ∈ m.arrayBlocks ++ (m.nodes ++ live), a + c.sizeofBlock ≤ b ∨ b + c.sizeofBlock ≤ a := fun b hb =>
    o1.disjoint hc (by simp) (List.mem_cons_of_mem _ hb) (fun e => an (e ▸ hb))
  let node : List Byte := List.replicate c.ptrSize 0 ++ key ++ List.replicate ty.sizeV 0
  have hnl : node.length = c.ptrSize + ty.sizeK + ty.sizeV := by simp [node, hk, Nat.add_assoc]
  obtain ⟨e2, o2⟩ := o1.store hc (a := a) (off := 0) (bs := node) (by simp) (by omega)
  -- the new node in memory
  have hkey : keyAt c ty (writeBytes s1.mem (a + 0) node) a = key := by
    simp only [keyAt, node, Nat.add_zero, writeBytes_append]
    rw [readBytes_write_other (by simp [hk]; omega)]
    rw [show a + c.ptrSize = a + (List.replicate c.ptrSize (0 : Byte)).length by simp]
    exact readBytes_writeBytes' hk
  have hval : valueAt c ty (writeBytes s1.mem (a + 0) node) a = List.replicate ty.sizeV 0 := by
    simp only [valueAt, node, Nat.add_zero, writeBytes_append]
    rw [show a + (List.replicate c.ptrSize (0 : Byte) ++ key).length = a + (c.ptrSize + ty.sizeK) by simp [hk]]
    exact readBytes_writeBytes' (by simp)
  -- the others
  have hoth : ∀ b ∈ m.arrayBlocks ++ (m.nodes ++ live), ∀ x, b ≤ x → x < b + c.sizeofBlock →
      writeBytes s1.mem (a + 0) node x = s.mem x := by
    intro b hb x hx1 hx2
    rw [writeBytes_other _ _ _ _ (by have := hdis b hb; omega), m1]
  have o2' : Own c { s1 with mem := writeBytes s1.mem (a + 0) node } (m.arrayBlocks ++ (a :: (m.nodes ++ live))) :=
    o2.perm List.perm_middle.symm
  -- the buckets
  obtain ⟨s3, m3, e3, o3, f3, n3, b3, ar3⟩ : ∃ s3 m3, growBuckets c ty { s1 with mem := writeBytes s1.mem (a + 0) node } m k2 = .ok (true, s3, m3) ∧
      Own c s3 (m3.arrayBlocks ++ (a :: (m.nodes ++ live))) ∧
      (∀ b ∈ a :: (m.nodes ++ live), ∀ x, b ≤ x → x < b + c.sizeofBlock → s3.mem x = writeBytes s1.mem (a + 0) node x) ∧
      m3.nodes = m.nodes ∧ m3.bucketCount = (ty.rehash m.bucketCount kv.length).getD m.bucketCount ∧
      m3.hasArray = (m.hasArray || (ty.rehash m.bucketCount kv.length).isSome) := by
    simp only [growBuckets, Fits, ← hlen] at hfit ⊢
    cases hr : ty.rehash m.bucketCount kv.length with
    | none => exact ⟨_, m, rfl, o2', fun _ _ _ _ _ => rfl, rfl, rfl, by simp⟩
    | some n =>
      rw [hr] at hfit
      obtain ⟨s3, p, e3, p0, o3, f3⟩ := mapRehash_ok hc o2' n k2 hfit.2.1 hfit.2.2 (by
        have := List.perm_middle (a := a) (l₁ := m.arrayBlocks) (l₂ := m.nodes ++ live)
        rw [this.length_eq, List.length_cons]; omega)
      refine ⟨s3, _, e3, ?_, f3, rfl, rfl, ?_⟩
      · simpa [Map.arrayBlocks, p0] using o3
      · simp [Map.hasArray, p0]
  refine ⟨a, s3, { m3 with nodes := a :: m3.nodes }, ?_, ?_, by simp, ?_, b3, ar3⟩
  · simp only [insertNew, e1, Outcome.ok_bind, ptrOf]
    rw [if_neg (by simp)]
    have e2' : store c s1 a 0 (List.replicate c.ptrSize 0 ++ key ++ List.replicate ty.sizeV 0) = _ := e2
    rw [e2']
    simp only [Outcome.ok_bind, e3, if_true, Outcome.pure_eq]
  · refine ⟨?_, ?_, ?_, ?_⟩
    · rw [n3]; exact o3
    · intro b hb x hx1 hx2
      rw [f3 b (by simp [hb]) x hx1 hx2, hoth b (by simp [hb]) x hx1 hx2]
      exact h.frame b hb x hx1 hx2
    · simp only [Map.contents, List.map_cons, n3]
      congr 1
      · have := node_congr hnode (f3 a (by simp))
        rw [this.1, this.2, hkey, hval]
      · rw [← h.contents]
        refine contents_congr hnode ?_
        intro b hb x hx1 hx2
        rw [f3 b (by simp [hb]) x hx1 hx2, hoth b (by simp [hb]) x hx1 hx2]
    · rw [List.map_cons, List.nodup_cons]; exact ⟨hnew, h.keys⟩
  · rw [(node_congr hnode (f3 a (by simp))).1, hkey]

/-- A new node has been written; what remains is the buckets. -/
theorem MapInv.insertNew_node {c : Cfg} (hc : c.WF) {ty : MapTy} (hnode : c.ptrSize + ty.sizeK + ty.sizeV ≤ c.sizeofBlock)
    {live : List Nat} {mem0 : Mem} {s : State} {m : Map} {kv : List (List Byte × List Byte)}
    (h : MapInv c ty live mem0 s m kv) (key : List Byte) (hk : key.length = ty.sizeK) (k1 : Nat)
    (hroom : kv.length + m.hasArray.toNat + live.length < c.numBlocks) :
    ∃ a s1, Own c s1 (m.arrayBlocks ++ (a :: (m.nodes ++ live))) ∧
      (m.arrayBlocks ++ (a :: (m.nodes ++ live))).length = kv.length + m.hasArray.toNat + live.length + 1 ∧
      (∀ k2, insertNew c ty s m key k1 k2 = (growBuckets c ty s1 m k2 >>= fun r =>
        if r.1 then .ok (some a, r.2.1, { r.2.2 with nodes := a :: r.2.2.nodes })
        else Pool.deallocate c r.2.1 a >>= fun x => .ok (none, x.2, r.2.2))) ∧
      ∃ s2, Pool.deallocate c s1 a = .ok (.done, s2) ∧ MapInv c ty live mem0 s2 m kv := by
  have hlen : kv.length = m.nodes.length := by rw [← h.contents]; simp [Map.contents]
  have hal := m.arrayBlocks_length
  have hL : (m.arrayBlocks ++ (m.nodes ++ live)).length = kv.length + m.hasArray.toNat + live.length := by
    simp [hal, hlen]; omega
  have hbs := hc.blockSize_pos
  obtain ⟨a, s1, e1, m1, a0, an, o1⟩ := h.own.alloc hc 1 k1 (by omega) (by omega)
  have hdis : ∀ b ∈ m.arrayBlocks ++ (m.nodes ++ live), a + c.sizeofBlock ≤ b ∨ b + c.sizeofBlock ≤ a := fun b hb =>
    o1.disjoint hc (by simp) (List.mem_cons_of_mem _ hb) (fun e => an (e ▸ hb))
  let node : List Byte := List.replicate c.ptrSize 0 ++ key ++ List.replicate ty.sizeV 0
  have hnl : node.length = c.ptrSize + ty.sizeK + ty.sizeV := by simp [node, hk, Nat.add_assoc]
  obtain ⟨e2, o2⟩ := o1.store hc (a := a) (off := 0) (bs := node) (by simp) (by omega)
  have e2' : store c s1 a 0 (List.replicate c.ptrSize 0 ++ key ++ List.replicate ty.sizeV 0) = _ := e2
  obtain ⟨s4, e4, o4, f4⟩ := o2.dealloc hc
  refine ⟨a, { s1 with mem := writeBytes s1.mem (a + 0) node }, o2.perm List.perm_middle.symm, ?_, ?_, s4, e4, ?_⟩
  · rw [(List.perm_middle (a := a) (l₁ := m.arrayBlocks) (l₂ := m.nodes ++ live)).length_eq, List.length_cons, hL]
  · intro k2
    simp only [insertNew, e1, Outcome.ok_bind, ptrOf]
    rw [if_neg (by simp), e2']
    simp only [Outcome.ok_bind, Outcome.pure_eq]
  · have hoth : ∀ b ∈ m.arrayBlocks ++ (m.nodes ++ live), ∀ x, b ≤ x → x < b + c.sizeofBlock → s4.mem x = s.mem x := by
      intro b hb x hx1 hx2
      have := hdis b hb
      rw [f4 x (by omega)]
      show writeBytes s1.mem (a + 0) node x = s.mem x
      rw [writeBytes_other _ _ _ _ (by omega), m1]
    refine ⟨o4, ?_, ?_, h.keys⟩
    · intro b hb x hx1 hx2
      rw [hoth b (by simp [hb]) x hx1 hx2]; exact h.frame b hb x hx1 hx2
    · rw [← h.contents]
      exact contents_congr hnode fun b hb x hx1 hx2 => hoth b (by simp [hb]) x hx1 hx2

theorem MapInv.insertNew_refused {c : Cfg} (hc : c.WF) {ty : MapTy} (hnode : c.ptrSize + ty.sizeK + ty.sizeV ≤ c.sizeofBlock)
    {live : List Nat} {mem0 : Mem} {s : State} {m : Map} {kv : List (List Byte × List Byte)}
    (h : MapInv c ty live mem0 s m kv) (key : List Byte) (hk : key.length = ty.sizeK) (k1 k2 : Nat)
    (hfit : ¬ Fits (granted c) ty (c.numBlocks - live.length) kv.length m.bucketCount m.hasArray) :
    if c.exceptions then ∃ s', insertNew c ty s m key k1 k2 = .ok (none, s', m) ∧ MapInv c ty live mem0 s' m kv
    else insertNew c ty s m key k1 k2 = .ub .nullDeref := by
  have hlen : kv.length = m.nodes.length := by rw [← h.contents]; simp [Map.contents]
  have hal := m.arrayBlocks_length
  have hL : (m.arrayBlocks ++ (m.nodes ++ live)).length = kv.length + m.hasArray.toNat + live.length := by
    simp [hal, hlen]; omega
  have hle := h.own.length_le hc
  by_cases hfull : (m.arrayBlocks ++ (m.nodes ++ live)).length = c.numBlocks
  · have hf := h.own.alloc_fails hc 1 k1 (.inr hfull)
    cases hx : c.exceptions
    · simp [insertNew, hf, Pool.failure, hx, ptrOf, store]
    · exact ⟨s, by simp [insertNew, hf, Pool.failure, hx], h⟩
  · obtain ⟨a, s1, o1, l1, e1, s2, e2, i2⟩ := h.insertNew_node hc hnode key hk k1 (by omega)
    simp only [Fits, granted] at hfit
    cases hr : ty.rehash m.bucketCount kv.length with
    | none => rw [hr] at hfit; simp only at hfit; omega
    | some n =>
      rw [hr] at hfit
      simp only at hfit
      have hg : growBuckets c ty s1 m k2 = mapRehash c s1 m n k2 := by simp only [growBuckets, ← hlen, hr]
      have hrf := mapRehash_refused hc o1 n k2 (by omega)
      rw [e1, hg, hrf]
      cases hx : c.exceptions
      · rfl
      · refine ⟨s2, ?_, i2⟩
        simp [e2]

theorem MapInv.insertNew_trap {c : Cfg} (hc : c.WF) {ty : MapTy} (hnode : c.ptrSize + ty.sizeK + ty.sizeV ≤ c.sizeofBlock)
    {live : List Nat} {mem0 : Mem} {s : State} {m : Map} {kv : List (List Byte × List Byte)}
    (h : MapInv c ty live mem0 s m kv) (key : List Byte) (hk : key.length = ty.sizeK) (k1 k2 : Nat)
    (hfit : Fits (granted c) ty (c.numBlocks - live.length) kv.length m.bucketCount m.hasArray)
    (hbig : ¬ Fits (roomy c) ty (c.numBlocks - live.length) kv.length m.bucketCount m.hasArray) :
    insertNew c ty s m key k1 k2 = .ub .outOfBounds := by
  have hlen : kv.length = m.nodes.length := by rw [← h.contents]; simp [Map.contents]
  simp only [Fits, granted, roomy] at hfit hbig
  cases hr : ty.rehash m.bucketCount kv.length with
  | none => rw [hr] at hfit hbig; exact absurd hfit hbig
  | some n =>
    rw [hr] at hfit hbig
    simp only at hfit hbig
    obtain ⟨a, s1, o1, l1, e1, -⟩ := h.insertNew_node hc hnode key hk k1 (by omega)
    have hg : growBuckets c ty s1 m k2 = mapRehash c s1 m n k2 := by simp only [growBuckets, ← hlen, hr]
    rw [e1, hg, mapRehash_trap hc o1 n k2 hfit.2 (by omega) (fun hx => hbig ⟨hfit.1, hfit.2, hx⟩)]
    rfl

end Uavcan.Stl
