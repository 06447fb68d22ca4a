import Verif.Lemmas.Containers

/-!
# C87–C89: standard containers on the pool allocator
-/

namespace Uavcan.Stl
open Uavcan.Pool

/-! ## C87: `std::vector` -/

/-- The specification: a list of at most `max` elements. Asking for more is refused with an exception and changes nothing; taking from an empty list
and reading beyond the end is undefined. -/
def idealVecStep (max : Nat) (l : List (List Byte)) : VecOp → Outcome (Answer × List (List Byte))
  | .pushBack e _ => .ok (if l.length < max then (.done, l ++ [e]) else (.lengthError, l))
  | .reserve n _ => .ok (if n ≤ max then .done else .lengthError, l)
  | .shrinkToFit _ _ => .ok (.done, l)
  | .popBack => if l = [] then .ub .outOfBounds else .ok (.done, l.dropLast)
  | .clear => .ok (.done, [])
  | .get i => match l[i]? with
    | some e => .ok (.value e, l)
    | none => .ub .outOfBounds

def idealVecRun (max : Nat) (l : List (List Byte)) : List VecOp → Outcome (List Answer × List (List Byte))
  | [] => .ok ([], l)
  | op :: ops => do
    let (a, l) ← idealVecStep max l op
    let (as, l) ← idealVecRun max l ops
    return (a :: as, l)

/-- All elements pushed have the size of the element type. -/
def VecTyped (t : Nat) : VecOp → Prop
  | .pushBack e _ => e.length = t
  | _ => True

/-- What every implementation of `std::vector` has to do when it grows: make room for one more, but stay within `max_size()`. -/
def GrowOK (g : Nat → Nat → Nat) : Prop := ∀ size max, size < max → size < g size max ∧ g size max ≤ max

theorem libstdcxxGrow_ok : GrowOK libstdcxxGrow := by
  intro size max h
  simp only [libstdcxxGrow]
  have : Nat.max size 1 ≥ 1 := Nat.le_max_right _ _
  split <;> omega

theorem libcxxGrow_ok : GrowOK libcxxGrow := by
  intro size max h
  simp only [libcxxGrow]
  have h1 : Nat.max (2 * size) (size + 1) ≥ size + 1 := Nat.le_max_right _ _
  have h2 : Nat.max (2 * size) (size + 1) ≤ 2 * size + 1 := Nat.max_le.2 ⟨by omega, by omega⟩
  split
  · omega
  · omega

/-- The capacity a vector of `size` elements wants for a call, if it has to move to a new array. -/
def newCapacity (grow : Nat → Nat → Nat) (max size cap : Nat) : VecOp → Option Nat
  | .pushBack _ _ => if size = cap ∧ size < max then some (grow size max) else none
  | .reserve n _ => if n ≤ max ∧ cap < n then some n else none
  | .shrinkToFit honoured _ => if honoured = true ∧ cap ≠ size then some size else none
  | _ => none

theorem VecInv.step {c : Cfg} (hc : c.WF) {ty : VecTy} (hg : GrowOK ty.grow) (hroom : c.blockSize * ty.sizeT ≤ c.sizeofBlock)
    {live : List Nat} {mem0 : Mem} {s : State} {v : Vec} {l : List (List Byte)}
    (h : VecInv c ty.sizeT live mem0 s v l) (op : VecOp) (hop : VecTyped ty.sizeT op)
    (hfree : ∀ n, newCapacity ty.grow c.blockSize l.length v.cap op = some n → n = 0 ∨ (v.blocks ++ live).length < c.numBlocks) :
    match idealVecStep c.blockSize l op with
    | .ub u => vecStep c ty s v op = .ub u
    | .ok (a, l') => ∃ s' v', vecStep c ty s v op = .ok (a, s', v') ∧ VecInv c ty.sizeT live mem0 s' v' l' ∧
        v'.cap = (newCapacity ty.grow c.blockSize l.length v.cap op).getD v.cap := by
  have hroom' : ∀ n, n ≤ c.blockSize → n * ty.sizeT ≤ c.sizeofBlock := fun n hn =>
    Nat.le_trans (Nat.mul_le_mul_right _ hn) hroom
  have hcl := h.cap_le
  have hsl := h.size_le
  have hlen := h.len
  have hmax : vecMaxSize c = c.blockSize := rfl
  cases op with
  | pushBack e k =>
    simp only [VecTyped] at hop
    simp only [idealVecStep, vecStep]
    rw [hmax]
    by_cases h1 : v.size ≠ v.cap
    · have hst : v.start ≠ 0 := h.start_ne (by omega)
      have hr : v.size * ty.sizeT + e.length ≤ c.sizeofBlock := by
        have := hroom' (v.size + 1) (by omega)
        rw [Nat.add_mul] at this; omega
      obtain ⟨a1, a2⟩ := h.own.store hc (a := v.start) (by simp [Vec.blocks_mem hst]) hr
      rw [if_pos h1, if_pos (by omega), a1]
      refine ⟨_, _, rfl, ?_, by simp only [newCapacity, hlen]; rw [if_neg (by omega)]; rfl⟩
      refine ⟨a2, ?_, hcl, by show v.size + 1 ≤ v.cap; omega, h.start_cap, h.cap_start, by simp [hlen], ?_, ?_⟩
      · refine h.frame.write (p := v.start) ?_ ?_
        · intro b hb
          have hn := h.own.nodup hc
          rw [Vec.blocks_eq hst, List.singleton_append, List.nodup_cons] at hn
          exact h.own.disjoint hc (by simp [Vec.blocks_mem hst]) (by simp [hb]) (fun e => hn.1 (e ▸ hb))
        · intro x hx
          exact writeBytes_other _ _ _ _ (by omega)
      · intro x hx
        rcases List.mem_append.1 hx with hx | hx
        · exact h.elems x hx
        · simp only [List.mem_singleton] at hx; rw [hx]; exact hop
      · show readBytes (writeBytes s.mem _ e) v.start ((v.size + 1) * ty.sizeT) = _
        rw [Nat.add_mul, Nat.one_mul, readBytes_append, List.flatten_append, readBytes_write_other (by omega), h.bytes,
          readBytes_writeBytes' hop]
        simp
    · rw [if_neg h1]
      by_cases h2 : l.length < c.blockSize
      · rw [if_pos h2, if_neg (by omega)]
        have := hg v.size c.blockSize (by omega)
        have hnc : newCapacity ty.grow c.blockSize l.length v.cap (.pushBack e k) = some (ty.grow v.size c.blockSize) := by
          simp only [newCapacity, hlen]; rw [if_pos (by omega)]
        obtain ⟨s', v', e1, e2, e3⟩ := h.reallocate hc (ty.grow v.size c.blockSize) k (hfree _ hnc) (some e)
          (by intro x hx; cases hx; exact hop) (by simp; omega) this.2 (hroom' _ this.2)
        exact ⟨s', v', e1, e2, by rw [hnc]; exact e3⟩
      · rw [if_neg h2, if_pos (by omega)]
        exact ⟨s, v, rfl, h, by simp only [newCapacity]; rw [if_neg (by omega)]; rfl⟩
  | reserve n k =>
    simp only [idealVecStep, vecStep]
    rw [hmax]
    by_cases h1 : n ≤ c.blockSize
    · rw [if_pos h1, if_neg (by omega)]
      by_cases h2 : v.cap < n
      · rw [if_pos h2]
        have hnc : newCapacity ty.grow c.blockSize l.length v.cap (.reserve n k) = some n := by
          simp only [newCapacity]; rw [if_pos ⟨h1, h2⟩]
        obtain ⟨s', v', e1, e2, e3⟩ := h.reallocate hc n k (hfree _ hnc) none (by intro x hx; cases hx) (by simp; omega) h1 (hroom' _ h1)
        exact ⟨s', v', e1, by simpa using e2, by rw [hnc]; exact e3⟩
      · rw [if_neg h2]; exact ⟨s, v, rfl, h, by simp only [newCapacity]; rw [if_neg (by omega)]; rfl⟩
    · rw [if_neg h1, if_pos (by omega)]; exact ⟨s, v, rfl, h, by simp only [newCapacity]; rw [if_neg (by omega)]; rfl⟩
  | shrinkToFit honoured k =>
    simp only [idealVecStep, vecStep]
    by_cases hh : honoured = true ∧ v.cap ≠ v.size
    · have hnc : newCapacity ty.grow c.blockSize l.length v.cap (.shrinkToFit honoured k) = some v.size := by
        simp only [newCapacity, hlen]; rw [if_pos hh]
      obtain ⟨s', v', e1, e2, e3⟩ := h.reallocate hc v.size k (hfree _ hnc) none (by intro x hx; cases hx) (by simp) (by omega)
        (hroom' _ (by omega))
      rw [if_pos hh, e1]
      exact ⟨s', v', rfl, by simpa using e2, by rw [hnc]; exact e3⟩
    · rw [if_neg hh]
      exact ⟨s, v, rfl, h, by simp only [newCapacity, hlen]; rw [if_neg hh]; rfl⟩
  | popBack =>
    simp only [idealVecStep, vecStep]
    by_cases h1 : l = []
    · have : v.size = 0 := by rw [← hlen, h1]; rfl
      rw [if_pos h1, if_pos this]
    · have hpos : 0 < l.length := List.length_pos_iff.2 h1
      rw [if_neg h1, if_neg (by omega)]
      refine ⟨s, _, rfl, ⟨h.own, h.frame, hcl, by show v.size - 1 ≤ v.cap; omega, h.start_cap, h.cap_start, by simp [hlen], ?_, ?_⟩, rfl⟩
      · intro x hx; exact h.elems x (List.dropLast_subset l hx)
      · have hb := h.bytes
        rw [show v.size * ty.sizeT = (v.size - 1) * ty.sizeT + ty.sizeT by
              rw [← Nat.succ_mul]; congr 1; omega, readBytes_append] at hb
        have hsplit : l = l.dropLast ++ [l.getLast h1] := (List.dropLast_concat_getLast h1).symm
        rw [hsplit, List.flatten_append] at hb
        refine (List.append_inj hb ?_).1
        rw [readBytes_length, flatten_length _ (fun x hx => h.elems x (List.dropLast_subset l hx))]
        simp [hlen]
  | clear =>
    simp only [idealVecStep, vecStep]
    exact ⟨s, _, rfl, ⟨h.own, h.frame, hcl, Nat.zero_le _, h.start_cap, h.cap_start, rfl, by simp, by simp [readBytes]⟩, rfl⟩
  | get i =>
    simp only [idealVecStep, vecStep]
    by_cases h1 : i < l.length
    · rw [List.getElem?_eq_getElem h1, if_pos (by omega)]
      have hst : v.start ≠ 0 := h.start_ne (by omega)
      have hr : i * ty.sizeT + ty.sizeT ≤ c.sizeofBlock := by
        have := hroom' (i + 1) (by omega)
        rw [Nat.add_mul] at this; omega
      rw [h.own.load hc (a := v.start) (by simp [Vec.blocks_mem hst]) hr]
      have := readBytes_element l v.start h.elems (by rw [hlen]; exact h.bytes) i h1
      rw [this]
      exact ⟨s, v, rfl, h, rfl⟩
    · rw [List.getElem?_eq_none (by omega), if_neg (by omega)]

theorem VecInv.room {c : Cfg} {t : Nat} {live : List Nat} {mem0 : Mem} {s : State} {v : Vec} {l : List (List Byte)}
    (h : VecInv c t live mem0 s v l) (hfree : live.length + 2 ≤ c.numBlocks) : (v.blocks ++ live).length < c.numBlocks := by
  rw [List.length_append, h.blocks_length]; split <;> omega

theorem VecInv.run {c : Cfg} (hc : c.WF) {ty : VecTy} (hg : GrowOK ty.grow) (hroom : c.blockSize * ty.sizeT ≤ c.sizeofBlock)
    {live : List Nat} (hfree : live.length + 2 ≤ c.numBlocks) {mem0 : Mem} (ops : List VecOp) :
    ∀ {s : State} {v : Vec} {l : List (List Byte)}, VecInv c ty.sizeT live mem0 s v l → (∀ op ∈ ops, VecTyped ty.sizeT op) →
    match idealVecRun c.blockSize l ops with
    | .ub u => vecRun c ty s v ops = .ub u
    | .ok (as, l') => ∃ s' v', vecRun c ty s v ops = .ok (as, s', v') ∧ VecInv c ty.sizeT live mem0 s' v' l' := by
  induction ops with
  | nil => intro s v l h _; exact ⟨s, v, rfl, h⟩
  | cons op ops ih =>
    intro s v l h hop
    have h1 := h.step hc hg hroom op (hop op (by simp)) (fun _ _ => .inr (h.room hfree))
    simp only [idealVecRun, vecRun]
    cases e : idealVecStep c.blockSize l op with
    | ub u => rw [e] at h1; simp only at h1; rw [h1]; rfl
    | ok r =>
      obtain ⟨a, l'⟩ := r
      rw [e] at h1
      obtain ⟨s', v', e1, e2, -⟩ := h1
      have h2 := ih e2 (fun o ho => hop o (by simp [ho]))
      rw [e1]
      simp only [Outcome.ok_bind]
      cases e3 : idealVecRun c.blockSize l' ops with
      | ub u => rw [e3] at h2; simp only at h2; rw [h2]; rfl
      | ok r =>
        obtain ⟨as, l''⟩ := r
        rw [e3] at h2
        obtain ⟨s'', v'', e4, e5⟩ := h2
        rw [e4]
        exact ⟨s'', v'', rfl, e5⟩

theorem VecInv.empty {c : Cfg} (t : Nat) {s : State} {live : List Nat} (h : Own c s live) : VecInv c t live s.mem s Vec.empty [] where
  own := by simpa [Vec.blocks, Vec.empty] using h
  frame := fun _ _ _ _ _ => rfl
  cap_le := Nat.zero_le _
  size_le := Nat.le_refl _
  start_cap := fun _ => rfl
  cap_start := fun _ => rfl
  len := rfl
  elems := by simp
  bytes := by simp [Vec.empty, readBytes]

/-- The elements as a reader of the vector's memory finds them. -/
def Vec.elements (t : Nat) (s : State) (v : Vec) : List (List Byte) :=
  (List.range v.size).map fun i => readBytes s.mem (v.start + i * t) t

theorem VecInv.elements {c : Cfg} {t : Nat} {live : List Nat} {mem0 : Mem} {s : State} {v : Vec} {l : List (List Byte)}
    (h : VecInv c t live mem0 s v l) : v.elements t s = l := by
  refine List.ext_getElem (by simp [Vec.elements, h.len]) ?_
  intro i h1 h2
  simp only [Vec.elements, List.getElem_map, List.getElem_range]
  exact readBytes_element l v.start h.elems (by rw [h.len]; exact h.bytes) i h2

/-- The property as stated in `properties.jsonl`: for every element type the allocator admits, a vector on a pool with two free blocks does nothing
undefined which a list would not do. -/
def C87_Statement : Prop :=
  ∀ (c : Cfg) (ty : VecTy), c.WF → GrowOK ty.grow → 0 < ty.sizeT → ty.sizeT ≤ c.blockSize →
  ∀ (s : State) (live : List Nat), History c s live → live.length + 2 ≤ c.numBlocks →
  ∀ ops : List VecOp, (∀ op ∈ ops, VecTyped ty.sizeT op) →
    (idealVecRun c.blockSize [] ops).Defined → (vecRun c ty s Vec.empty ops).Defined

/-- C87, partial: let `BlockSize` elements fit into a block (as is the case if elements have one byte) and let two blocks be free. Then, however the
library grows its vectors, every sequence of calls on a new vector gives the answers of a list with at most `BlockSize` elements, exceptions
included; the memory holds these elements; the blocks of all others keep every byte, during the calls and after the destructor; and
the destructor leaves exactly the others' blocks handed out. Missing: bigger element types, for which it is false. -/
theorem C87_vector_partial {c : Cfg} (hc : c.WF) {ty : VecTy} (hg : GrowOK ty.grow) (hroom : c.blockSize * ty.sizeT ≤ c.sizeofBlock)
    {s : State} {live : List Nat} (h : History c s live) (hfree : live.length + 2 ≤ c.numBlocks)
    (ops : List VecOp) (hops : ∀ op ∈ ops, VecTyped ty.sizeT op) :
    match idealVecRun c.blockSize [] ops with
    | .ub u => vecRun c ty s Vec.empty ops = .ub u
    | .ok (as, l) => ∃ s' v, vecRun c ty s Vec.empty ops = .ok (as, s', v) ∧
        v.elements ty.sizeT s' = l ∧ v.size ≤ v.cap ∧ v.cap ≤ c.blockSize ∧ Frame c live s.mem s'.mem ∧
        ∃ s'', vecDestroy c s' v = .ok s'' ∧ Own c s'' live ∧ Frame c live s.mem s''.mem := by
  have := VecInv.run hc hg hroom hfree ops (VecInv.empty ty.sizeT (Own.of_history h)) hops
  cases e : idealVecRun c.blockSize [] ops with
  | ub u => rw [e] at this; exact this
  | ok r =>
    obtain ⟨as, l⟩ := r
    rw [e] at this
    obtain ⟨s', v, e1, hi⟩ := this
    obtain ⟨r, s'', e2, o2, f2⟩ := Own.dealloc_vec hc hi.own
    refine ⟨s', v, e1, hi.elements, hi.size_le, hi.cap_le, hi.frame, s'', ?_, o2, ?_⟩
    · simp [vecDestroy, e2]
    · intro b hb x hx1 hx2
      rw [f2 b hb x hx1 hx2]; exact hi.frame b hb x hx1 hx2

/-- A run on the example pool: growing from 1 to 2 elements, popping, a refused reservation, reading. The hypotheses of C87 hold for one-byte elements, with one
block of three in use by someone else. -/
example : idealVecRun 8 [] [.pushBack [1] 0, .pushBack [2] 3, .reserve 9 0, .popBack, .pushBack [7] 0, .get 1] =
    .ok ([.done, .done, .lengthError, .done, .done, .value [7]], [[1], [7]]) := by decide

example : (exCfg false).blockSize * 1 ≤ (exCfg false).sizeofBlock ∧ 1 + 2 ≤ (exCfg false).numBlocks := by decide

/-- Pushing into reserved space up to the end of the block and beyond. -/
theorem push_beyond {c : Cfg} {ty : VecTy} (p : Nat) (hp : p ≠ 0) (cap : Nat) (hbig : c.sizeofBlock < cap * ty.sizeT) (n : Nat) :
    ∀ (s : State) (j : Nat), j + n = cap → j * ty.sizeT ≤ c.sizeofBlock →
      vecRun c ty s ⟨p, j, cap⟩ (List.replicate n (.pushBack (List.replicate ty.sizeT 0) 0)) = .ub .outOfBounds := by
  induction n with
  | zero => intro s j h1 h2; rw [Nat.add_zero] at h1; subst h1; omega
  | succ n ih =>
    intro s j h1 h2
    simp only [List.replicate_succ, vecRun, vecStep]
    rw [if_pos (by omega)]
    simp only [store, if_neg hp, List.length_replicate]
    by_cases h3 : j * ty.sizeT + ty.sizeT ≤ c.sizeofBlock
    · rw [if_pos h3]
      simp only [Outcome.ok_bind, Outcome.pure_eq]
      rw [ih _ (j + 1) (by omega) (by rw [Nat.add_mul]; omega)]
      rfl
    · rw [if_neg h3]; rfl

theorem idealVecRun_pushes (max : Nat) (e : List Byte) (n : Nat) : ∀ l : List (List Byte), l.length + n ≤ max →
    (idealVecRun max l (List.replicate n (.pushBack e 0))).Defined := by
  induction n with
  | zero => intro l _; exact ⟨_, rfl⟩
  | succ n ih =>
    intro l h
    simp only [List.replicate_succ, idealVecRun, idealVecStep]
    rw [if_pos (by omega)]
    obtain ⟨x, hx⟩ := ih (l ++ [e]) (by simp; omega)
    simp only [Outcome.ok_bind, hx]
    exact ⟨_, rfl⟩

/-- C87, the exact limit: with two free blocks, vectors of a type do nothing undefined (that lists would not do) if and only if `BlockSize` elements fit
into one block. Otherwise reserving `BlockSize` elements is granted, and filling them writes beyond the block. Missing: the types for which they do not fit. -/
theorem C87_exact_partial {c : Cfg} (hc : c.WF) {ty : VecTy} (hg : GrowOK ty.grow) {s : State} {live : List Nat} (h : History c s live)
    (hfree : live.length + 2 ≤ c.numBlocks) :
    (∀ ops : List VecOp, (∀ op ∈ ops, VecTyped ty.sizeT op) →
      (idealVecRun c.blockSize [] ops).Defined → (vecRun c ty s Vec.empty ops).Defined) ↔
    c.blockSize * ty.sizeT ≤ c.sizeofBlock := by
  constructor
  · intro hall
    refine Decidable.byContradiction fun hbig => ?_
    let ops : List VecOp := .reserve c.blockSize 0 :: List.replicate c.blockSize (.pushBack (List.replicate ty.sizeT 0) 0)
    have hpos := hc.blockSize_pos
    have hd : (idealVecRun c.blockSize [] ops).Defined := by
      obtain ⟨x, hx⟩ := idealVecRun_pushes c.blockSize (List.replicate ty.sizeT 0) c.blockSize [] (by simp)
      simp only [ops, idealVecRun, idealVecStep, Outcome.ok_bind, hx]
      exact ⟨_, rfl⟩
    have ht : ∀ op ∈ ops, VecTyped ty.sizeT op := by
      intro op hop
      simp only [ops, List.mem_cons, List.mem_replicate] at hop
      rcases hop with rfl | ⟨-, rfl⟩
      · trivial
      · simp [VecTyped]
    obtain ⟨r, hr⟩ := hall ops ht hd
    obtain ⟨p, s1, e1, -, hp, -, -⟩ := (Own.of_history h).alloc hc c.blockSize 0 (Nat.le_refl _) (by omega)
    have e2 : vecStep c ty s Vec.empty (.reserve c.blockSize 0) = .ok (.done, s1, ⟨p, 0, c.blockSize⟩) := by
      have hmax : vecMaxSize c = c.blockSize := rfl
      simp only [vecStep]
      rw [hmax, if_neg (by omega), if_pos (by show 0 < c.blockSize; exact hpos)]
      simp only [reallocate, vecAllocate, if_neg (show ¬ c.blockSize = 0 by omega), e1, Outcome.ok_bind, ptrOf]
      rw [if_neg (by simp)]
      simp [constructExtra, moveElements, Vec.empty, Pool.deallocate]
    simp only [ops, vecRun, e2, Outcome.ok_bind] at hr
    rw [push_beyond p hp c.blockSize (by omega) c.blockSize s1 0 (by omega) (by omega)] at hr
    cases hr
  · intro hroom ops hops hd
    have := C87_vector_partial hc hg hroom h hfree ops hops
    obtain ⟨⟨as, l⟩, e⟩ := hd
    rw [e] at this
    obtain ⟨s', v, e1, -⟩ := this
    exact ⟨_, e1⟩

/-- C87 is false: eight 4-byte elements are granted space in a block of eight bytes. -/
theorem C87_full_statement_fails : ¬ C87_Statement := by
  intro h
  have hwf : (exCfg false).WF := by constructor <;> decide
  have := (C87_exact_partial (ty := ⟨4, libstdcxxGrow⟩) hwf libstdcxxGrow_ok (History.start (c := exCfg false) fun _ => 0) (by decide)).1
    (h _ ⟨4, libstdcxxGrow⟩ hwf libstdcxxGrow_ok (by decide) (by decide) _ _ (History.start (c := exCfg false) fun _ => 0) (by decide))
  revert this
  decide

/-- The specification when blocks are scarce (`free` of them are not held by others): a list and a capacity. Moving to a new array takes a block while the old one is
still held; if there is none, the call is refused and changes nothing (`shrink_to_fit` does not say so). -/
def scarceVecStep (grow : Nat → Nat → Nat) (max free : Nat) (l : List (List Byte)) (cap : Nat) (op : VecOp) :
    Outcome (Answer × List (List Byte) × Nat) :=
  match newCapacity grow max l.length cap op with
  | some n =>
    if n = 0 ∨ (if cap = 0 then 0 else 1) < free then idealVecStep max l op >>= fun r => .ok (r.1, r.2, n)
    else match op with
      | .shrinkToFit _ _ => .ok (.done, l, cap)
      | _ => .ok (.badAlloc, l, cap)
  | none => idealVecStep max l op >>= fun r => .ok (r.1, r.2, cap)

def scarceVecRun (grow : Nat → Nat → Nat) (max free : Nat) (l : List (List Byte)) (cap : Nat) :
    List VecOp → Outcome (List Answer × List (List Byte) × Nat)
  | [] => .ok ([], l, cap)
  | op :: ops => do
    let (a, l, cap) ← scarceVecStep grow max free l cap op
    let (as, l, cap) ← scarceVecRun grow max free l cap ops
    return (a :: as, l, cap)

theorem VecInv.step_scarce {c : Cfg} (hc : c.WF) {ty : VecTy} (hg : GrowOK ty.grow) (hroom : c.blockSize * ty.sizeT ≤ c.sizeofBlock)
    (hx : c.exceptions = true) {live : List Nat} {mem0 : Mem} {s : State} {v : Vec} {l : List (List Byte)}
    (h : VecInv c ty.sizeT live mem0 s v l) (op : VecOp) (hop : VecTyped ty.sizeT op) :
    match scarceVecStep ty.grow c.blockSize (c.numBlocks - live.length) l v.cap op with
    | .ub u => vecStep c ty s v op = .ub u
    | .ok (a, l', cap) => ∃ s' v', vecStep c ty s v op = .ok (a, s', v') ∧ VecInv c ty.sizeT live mem0 s' v' l' ∧ v'.cap = cap := by
  have hbl := h.blocks_length
  have hle := h.own.length_le hc
  have hL : (v.blocks ++ live).length = (if v.cap = 0 then 0 else 1) + live.length := by rw [List.length_append, hbl]
  have key : ∀ n, (∀ m, newCapacity ty.grow c.blockSize l.length v.cap op = some m → m = 0 ∨ (v.blocks ++ live).length < c.numBlocks) →
      (newCapacity ty.grow c.blockSize l.length v.cap op).getD v.cap = n →
      match idealVecStep c.blockSize l op >>= fun r => Outcome.ok (r.1, r.2, n) with
      | .ub u => vecStep c ty s v op = .ub u
      | .ok (a, l', cap) => ∃ s' v', vecStep c ty s v op = .ok (a, s', v') ∧ VecInv c ty.sizeT live mem0 s' v' l' ∧ v'.cap = cap := by
    intro n hf hn
    have := h.step hc hg hroom op hop hf
    rw [hn] at this
    cases e : idealVecStep c.blockSize l op with
    | ub u => rw [e] at this; exact this
    | ok r => obtain ⟨a, l'⟩ := r; rw [e] at this; exact this
  simp only [scarceVecStep]
  cases hn : newCapacity ty.grow c.blockSize l.length v.cap op with
  | none => exact key v.cap (by intro m hm; rw [hn] at hm; cases hm) (by rw [hn]; rfl)
  | some n =>
    simp only
    by_cases hr : n = 0 ∨ (if v.cap = 0 then 0 else 1) < c.numBlocks - live.length
    · rw [if_pos hr]
      refine key n ?_ (by rw [hn]; rfl)
      intro m hm
      rw [hn] at hm
      cases hm
      rcases hr with hr | hr
      · exact .inl hr
      · right; omega
    · rw [if_neg hr]
      have hfull : (v.blocks ++ live).length = c.numBlocks := by omega
      have hfail := h.reallocate_fails hc hx n
      have hlen := h.len
      have hmax : vecMaxSize c = c.blockSize := rfl
      cases op with
      | pushBack e k =>
        simp only [newCapacity] at hn
        split at hn
        · next hcond =>
          cases hn
          refine ⟨s, v, ?_, h, rfl⟩
          simp only [vecStep]
          rw [hmax, if_neg (by omega), if_neg (by omega), ← hlen]
          exact hfail k (by omega) hfull _
        · cases hn
      | reserve m k =>
        simp only [newCapacity] at hn
        split at hn
        · next hcond =>
          cases hn
          refine ⟨s, v, ?_, h, rfl⟩
          simp only [vecStep]
          rw [hmax, if_neg (by omega), if_pos hcond.2]
          exact hfail k (by omega) hfull _
        · cases hn
      | shrinkToFit honoured k =>
        simp only [newCapacity] at hn
        split at hn
        · next hcond =>
          cases hn
          refine ⟨s, v, ?_, h, rfl⟩
          simp only [vecStep]
          rw [if_pos (by rw [← hlen]; exact hcond), ← hlen, hfail k (by omega) hfull _]
          rfl
        · cases hn
      | popBack => cases hn
      | clear => cases hn
      | get i => cases hn

/-- C87, partial: with exceptions, the same however few blocks are free. Missing: bigger element types, as before. -/
theorem C87_scarce_partial {c : Cfg} (hc : c.WF) {ty : VecTy} (hg : GrowOK ty.grow) (hroom : c.blockSize * ty.sizeT ≤ c.sizeofBlock)
    (hx : c.exceptions = true) {s : State} {live : List Nat} (h : History c s live) (ops : List VecOp) (hops : ∀ op ∈ ops, VecTyped ty.sizeT op) :
    match scarceVecRun ty.grow c.blockSize (c.numBlocks - live.length) [] 0 ops with
    | .ub u => vecRun c ty s Vec.empty ops = .ub u
    | .ok (as, l, cap) => ∃ s' v, vecRun c ty s Vec.empty ops = .ok (as, s', v) ∧
        v.elements ty.sizeT s' = l ∧ v.cap = cap ∧ Frame c live s.mem s'.mem ∧
        ∃ s'', vecDestroy c s' v = .ok s'' ∧ Own c s'' live ∧ Frame c live s.mem s''.mem := by
  have hrun : ∀ (ops : List VecOp) {s1 : State} {v : Vec} {l : List (List Byte)}, VecInv c ty.sizeT live s.mem s1 v l →
      (∀ op ∈ ops, VecTyped ty.sizeT op) →
      match scarceVecRun ty.grow c.blockSize (c.numBlocks - live.length) l v.cap ops with
      | .ub u => vecRun c ty s1 v ops = .ub u
      | .ok (as, l', cap) => ∃ s' v', vecRun c ty s1 v ops = .ok (as, s', v') ∧ VecInv c ty.sizeT live s.mem s' v' l' ∧ v'.cap = cap := by
    intro ops
    induction ops with
    | nil => intro s1 v l hi _; exact ⟨s1, v, rfl, hi, rfl⟩
    | cons op ops ih =>
      intro s1 v l hi hop
      have h1 := hi.step_scarce hc hg hroom hx op (hop op (by simp))
      simp only [scarceVecRun, vecRun]
      cases e : scarceVecStep ty.grow c.blockSize (c.numBlocks - live.length) l v.cap op with
      | ub u => rw [e] at h1; simp only at h1; rw [h1]; rfl
      | ok r =>
        obtain ⟨a, l', cap⟩ := r
        rw [e] at h1
        obtain ⟨s', v', e1, e2, rfl⟩ := h1
        have h2 := ih e2 (fun o ho => hop o (by simp [ho]))
        rw [e1]
        simp only [Outcome.ok_bind]
        cases e3 : scarceVecRun ty.grow c.blockSize (c.numBlocks - live.length) l' v'.cap ops with
        | ub u => rw [e3] at h2; simp only at h2; rw [h2]; rfl
        | ok r =>
          obtain ⟨as, l'', cap'⟩ := r
          rw [e3] at h2
          obtain ⟨s'', v'', e4, e5, e6⟩ := h2
          rw [e4]
          exact ⟨s'', v'', rfl, e5, e6⟩
  have := hrun ops (VecInv.empty ty.sizeT (Own.of_history h)) hops
  change match scarceVecRun ty.grow c.blockSize (c.numBlocks - live.length) [] 0 ops with
      | .ub u => vecRun c ty s Vec.empty ops = .ub u
      | .ok (as, l', cap) => ∃ s' v', vecRun c ty s Vec.empty ops = .ok (as, s', v') ∧ VecInv c ty.sizeT live s.mem s' v' l' ∧ v'.cap = cap at this
  cases e : scarceVecRun ty.grow c.blockSize (c.numBlocks - live.length) [] 0 ops with
  | ub u => rw [e] at this; exact this
  | ok r =>
    obtain ⟨as, l, cap⟩ := r
    rw [e] at this
    obtain ⟨s', v, e1, hi, hcap⟩ := this
    obtain ⟨r, s'', e2, o2, f2⟩ := Own.dealloc_vec hc hi.own
    refine ⟨s', v, e1, hi.elements, hcap, hi.frame, s'', by simp [vecDestroy, e2], o2, ?_⟩
    intro b hb x hx1 hx2
    rw [f2 b hb x hx1 hx2]; exact hi.frame b hb x hx1 hx2

/-- With one free block the second element is refused, the first one stays; a reservation would have helped. -/
example : scarceVecRun libstdcxxGrow 8 1 [] 0 [.pushBack [1] 0, .pushBack [2] 0, .get 0, .shrinkToFit true 0] =
      .ok ([.done, .badAlloc, .value [1], .done], [[1]], 1) ∧
    scarceVecRun libstdcxxGrow 8 1 [] 0 [.reserve 2 0, .pushBack [1] 0, .shrinkToFit true 0, .pushBack [2] 0] =
      .ok ([.done, .done, .done, .done], [[1], [2]], 2) := by decide

/-- C87: why two blocks have to be free. If none is left, a full vector (below `BlockSize` elements) cannot grow: with exceptions the push is refused and
nothing changes, without it writes through a null pointer. -/
theorem C87_no_block_left {c : Cfg} (hc : c.WF) {ty : VecTy} (hg : GrowOK ty.grow) {s : State} {L : List Nat} (h : Own c s L)
    (hfull : L.length = c.numBlocks) (v : Vec) (hv : v.size = v.cap) (hb : v.size < c.blockSize) (e : List Byte) (k : Nat) :
    vecStep c ty s v (.pushBack e k) = if c.exceptions then .ok (.badAlloc, s, v) else .ub .nullDeref := by
  have := hg v.size c.blockSize hb
  have hmax : vecMaxSize c = c.blockSize := rfl
  simp only [vecStep]
  rw [hmax, if_neg (by simp [hv]), if_neg (by omega)]
  simp only [reallocate, vecAllocate, if_neg (show ¬ ty.grow v.size c.blockSize = 0 by omega), h.alloc_fails hc _ _ (.inr hfull)]
  cases hx : c.exceptions <;> simp [Pool.failure, hx, constructExtra, store, ptrOf]

/-! ## C88: `std::unordered_map` -/

/-- The specification: an association list with one entry per key. -/
abbrev KV := List (List Byte × List Byte)

def KV.lookup (kv : KV) (key : List Byte) : Option (List Byte) := (kv.find? fun p => p.1 == key).map (·.2)

def KV.put (kv : KV) (key value : List Byte) : KV :=
  if key ∈ kv.map (·.1) then kv.map fun p => if p.1 = key then (key, value) else p else (key, value) :: kv

def KV.remove (kv : KV) (key : List Byte) : KV := kv.filter fun p => p.1 != key

/-- The specification behaves like a finite map. -/
theorem KV.lookup_put (kv : KV) (key value key' : List Byte) :
    (kv.put key value).lookup key' = if key' = key then some value else kv.lookup key' := by
  simp only [KV.put, KV.lookup]
  by_cases h : key ∈ kv.map (·.1)
  · rw [if_pos h]
    induction kv with
    | nil => simp at h
    | cons p kv ih =>
      simp only [List.map_cons, List.find?_cons]
      by_cases hp : p.1 = key
      · rw [if_pos hp]
        by_cases hk : key' = key
        · simp [hk]
        · have h1 : (key == key') = false := by simpa using fun e => hk e.symm
          have h2 : (p.1 == key') = false := by rw [hp]; exact h1
          simp only [h1, h2, if_neg hk]
          by_cases hm : key ∈ kv.map (·.1)
          · rw [ih hm, if_neg hk]
          · congr 1
            congr 1
            refine (List.map_congr_left ?_).trans (List.map_id _)
            intro q hq
            exact if_neg (fun e : q.1 = key => hm (e ▸ List.mem_map_of_mem hq))
      · rw [if_neg hp]
        have hm : key ∈ kv.map (·.1) := by
          simp only [List.map_cons, List.mem_cons] at h
          rcases h with h | h
          · exact absurd h.symm hp
          · exact h
        by_cases hk : p.1 = key'
        · have h1 : (p.1 == key') = true := by simpa using hk
          have h2 : ¬ key' = key := fun e => hp (hk.trans e)
          simp [h1, h2]
        · have h1 : (p.1 == key') = false := by simpa using hk
          simp only [h1]
          exact ih hm
  · rw [if_neg h, List.find?_cons]
    by_cases hk : key' = key
    · simp [hk]
    · have h1 : (key == key') = false := by simpa using fun e => hk e.symm
      simp [h1, hk]

theorem KV.lookup_remove (kv : KV) (key key' : List Byte) :
    (kv.remove key).lookup key' = if key' = key then none else kv.lookup key' := by
  simp only [KV.remove, KV.lookup, List.find?_filter]
  by_cases hk : key' = key
  · subst hk
    rw [if_pos rfl, List.find?_eq_none.2]
    · rfl
    · intro p _; simp
  · rw [if_neg hk]
    congr 2
    funext p
    by_cases hp : p.1 = key'
    · simp [hp, hk]
    · simp [hp]

/-- Answers and contents after a call on the ideal map. A new element of `operator[]` is zero. -/
def idealMapStep (sizeV : Nat) (kv : KV) : MapOp → Answer × KV
  | .assign key value _ _ => (.done, kv.put key value)
  | .subscript key _ _ => match kv.lookup key with
    | some v => (.value v, kv)
    | none => (.value (List.replicate sizeV 0), kv.put key (List.replicate sizeV 0))
  | .find key => (match kv.lookup key with | some v => .value v | none => .missing, kv)
  | .erase key => (if key ∈ kv.map (·.1) then .done else .missing, kv.remove key)

def idealMapRun (sizeV : Nat) (kv : KV) : List MapOp → List Answer × KV
  | [] => ([], kv)
  | op :: ops =>
    let (a, kv) := idealMapStep sizeV kv op
    let (as, kv) := idealMapRun sizeV kv ops
    (a :: as, kv)

/-- Keys and values have their sizes. -/
def MapTyped (ty : MapTy) : MapOp → Prop
  | .assign key value _ _ => key.length = ty.sizeK ∧ value.length = ty.sizeV
  | .subscript key _ _ => key.length = ty.sizeK
  | .find key => key.length = ty.sizeK
  | .erase key => key.length = ty.sizeK

/-- The call makes a new element. -/
def makesNew (kv : KV) : MapOp → Bool
  | .assign key _ _ _ => decide (key ∉ kv.map (·.1))
  | .subscript key _ _ => decide (key ∉ kv.map (·.1))
  | _ => false

/-- Whenever a call makes a new element there is room for it (`Fits`), given how the number of buckets develops. -/
def MapRoom (accept : Nat → Prop) (ty : MapTy) (free : Nat) : KV → (buckets : Nat) → (array : Bool) → List MapOp → Prop
  | _, _, _, [] => True
  | kv, b, array, op :: ops =>
    let grown := if makesNew kv op then ty.rehash b kv.length else none
    (makesNew kv op = true → Fits accept ty free kv.length b array) ∧
      MapRoom accept ty free (idealMapStep ty.sizeV kv op).2 (grown.getD b) (array || grown.isSome) ops

theorem KV.lookup_none {kv : KV} {key : List Byte} : kv.lookup key = none ↔ key ∉ kv.map (·.1) := by
  simp only [KV.lookup, Option.map_eq_none_iff, List.find?_eq_none, List.mem_map, not_exists, not_and]
  constructor
  · intro h p hp e; exact h p hp (by simpa using e)
  · intro h p hp e; exact h p hp (by simpa using e)

/-- The ideal contents after `operator[]` made sure there is an element. -/
def KV.ensure (sizeV : Nat) (kv : KV) (key : List Byte) : KV :=
  if key ∈ kv.map (·.1) then kv else (key, List.replicate sizeV 0) :: kv

theorem KV.ensure_set (sizeV : Nat) (kv : KV) (key value : List Byte) :
    ((kv.ensure sizeV key).map fun p => if p.1 = key then (key, value) else p) = kv.put key value := by
  simp only [KV.ensure, KV.put]
  by_cases h : key ∈ kv.map (·.1)
  · rw [if_pos h, if_pos h]
  · rw [if_neg h, if_neg h, List.map_cons, if_pos rfl]
    congr 1
    refine (List.map_congr_left ?_).trans (List.map_id _)
    intro q hq
    exact if_neg (fun e : q.1 = key => h (e ▸ List.mem_map_of_mem hq))

theorem MapInv.nodeFor_ok {c : Cfg} (hc : c.WF) {ty : MapTy} (hnode : c.ptrSize + ty.sizeK + ty.sizeV ≤ c.sizeofBlock)
    {live : List Nat} {mem0 : Mem} {s : State} {m : Map} {kv : KV} (h : MapInv c ty live mem0 s m kv) (key : List Byte)
    (hk : key.length = ty.sizeK) (k1 k2 : Nat)
    (hfit : key ∉ kv.map (·.1) → Fits (roomy c) ty (c.numBlocks - live.length) kv.length m.bucketCount m.hasArray) :
    ∃ a s' m', nodeFor c ty s m key k1 k2 = .ok (some a, s', m') ∧ MapInv c ty live mem0 s' m' (kv.ensure ty.sizeV key) ∧
      a ∈ m'.nodes ∧ keyAt c ty s'.mem a = key ∧
      m'.bucketCount = (if key ∉ kv.map (·.1) then ty.rehash m.bucketCount kv.length else none).getD m.bucketCount ∧
      m'.hasArray = (m.hasArray || (if key ∉ kv.map (·.1) then ty.rehash m.bucketCount kv.length else none).isSome) := by
  simp only [nodeFor]
  cases hf : findNode c ty s m key with
  | some a =>
    obtain ⟨h1, h2⟩ := findNode_some hf
    have hin : key ∈ kv.map (·.1) := by
      rw [← h.contents]
      simp only [Map.contents, List.map_map, List.mem_map, Function.comp]
      exact ⟨a, h1, h2⟩
    refine ⟨a, s, m, rfl, ?_, h1, h2, ?_, ?_⟩
    · simpa only [KV.ensure, if_pos hin] using h
    · simp [hin]
    · simp [hin]
  | none =>
    have hout : key ∉ kv.map (·.1) := by have := findNode_none hf; rwa [h.contents] at this
    obtain ⟨a, s', m', e1, i1, n1, y1, b1, r1⟩ := h.insertNew_ok hc hnode key hk hout k1 k2 (hfit hout)
    refine ⟨a, s', m', e1, ?_, n1, y1, ?_, ?_⟩
    · simpa only [KV.ensure, if_neg hout] using i1
    · rw [if_pos hout]; exact b1
    · rw [if_pos hout]; exact r1

theorem MapInv.nodeFor_new {c : Cfg} {ty : MapTy} {live : List Nat} {mem0 : Mem} {s : State} {m : Map} {kv : KV} (h : MapInv c ty live mem0 s m kv)
    (key : List Byte) (k1 k2 : Nat) (hout : key ∉ kv.map (·.1)) : nodeFor c ty s m key k1 k2 = insertNew c ty s m key k1 k2 := by
  simp only [nodeFor]
  cases hf : findNode c ty s m key with
  | some a =>
    obtain ⟨h1, h2⟩ := findNode_some hf
    refine absurd ?_ hout
    rw [← h.contents]
    simp only [Map.contents, List.map_map, List.mem_map, Function.comp]
    exact ⟨a, h1, h2⟩
  | none => rfl

theorem MapInv.disjoint {c : Cfg} (hc : c.WF) {ty : MapTy} {live : List Nat} {mem0 : Mem} {s : State} {m : Map} {kv : KV}
    (h : MapInv c ty live mem0 s m kv) {a : Nat} (ha : a ∈ m.nodes) :
    (∀ b ∈ m.nodes, b ≠ a → a + c.sizeofBlock ≤ b ∨ b + c.sizeofBlock ≤ a) ∧
    ∀ b ∈ live, a + c.sizeofBlock ≤ b ∨ b + c.sizeofBlock ≤ a := by
  have hn := h.own.nodup hc
  refine ⟨fun b hb hne => h.own.disjoint hc (by simp [ha]) (by simp [hb]) (fun e => hne e.symm), fun b hb => ?_⟩
  refine h.own.disjoint hc (by simp [ha]) (by simp [hb]) ?_
  have := (List.nodup_append.1 (List.nodup_append.1 hn).2.1).2.2
  exact this a ha b hb

theorem MapInv.setValue {c : Cfg} (hc : c.WF) {ty : MapTy} (hnode : c.ptrSize + ty.sizeK + ty.sizeV ≤ c.sizeofBlock)
    {live : List Nat} {mem0 : Mem} {s : State} {m : Map} {kv : KV} (h : MapInv c ty live mem0 s m kv) {a : Nat} (ha : a ∈ m.nodes)
    {key value : List Byte} (hk : keyAt c ty s.mem a = key) (hv : value.length = ty.sizeV) :
    ∃ s', store c s a (c.ptrSize + ty.sizeK) value = .ok s' ∧
      MapInv c ty live mem0 s' m (kv.map fun p => if p.1 = key then (key, value) else p) := by
  obtain ⟨e1, o1⟩ := h.own.store hc (a := a) (by simp [ha]) (off := c.ptrSize + ty.sizeK) (bs := value) (by omega)
  obtain ⟨hd1, hd2⟩ := h.disjoint hc ha
  refine ⟨_, e1, ⟨o1, ?_, ?_, ?_⟩⟩
  · exact h.frame.write (p := a) hd2 fun x hx => writeBytes_other _ _ _ _ (by omega)
  · rw [← h.contents]
    simp only [Map.contents, List.map_map]
    refine List.map_congr_left ?_
    intro b hb
    simp only [Function.comp]
    by_cases hba : b = a
    · subst hba
      rw [if_pos hk]
      congr 1
      · rw [← hk]
        exact readBytes_write_other (by omega)
      · exact readBytes_writeBytes' hv
    · have hkb : keyAt c ty s.mem b ≠ key := fun e => hba (h.node_unique hb ha (e.trans hk.symm))
      rw [if_neg hkb]
      have := hd1 b hb hba
      have := node_congr (m1 := writeBytes s.mem (a + (c.ptrSize + ty.sizeK)) value) (m2 := s.mem) (a := b) hnode
        (fun x hx1 hx2 => writeBytes_other _ _ _ _ (by omega))
      rw [this.1, this.2]
  · have : (kv.map fun p => if p.1 = key then (key, value) else p).map (·.1) = kv.map (·.1) := by
      rw [List.map_map]
      refine List.map_congr_left ?_
      intro p _
      simp only [Function.comp]
      split
      · rename_i e; exact e.symm
      · rfl
    rw [this]; exact h.keys

theorem KV.lookup_map {kv : KV} {key : List Byte} {p : List Byte × List Byte} (h : (kv.find? fun p => p.1 == key) = some p) :
    kv.lookup key = some p.2 := by simp [KV.lookup, h]

theorem MapInv.lookup {c : Cfg} {ty : MapTy} {live : List Nat} {mem0 : Mem} {s : State} {m : Map} {kv : KV}
    (h : MapInv c ty live mem0 s m kv) {a : Nat} (ha : a ∈ m.nodes) :
    kv.lookup (keyAt c ty s.mem a) = some (valueAt c ty s.mem a) := by
  have hf := h.find (keyAt c ty s.mem a)
  cases hn : findNode c ty s m (keyAt c ty s.mem a) with
  | none =>
    have := findNode_none hn
    refine absurd ?_ this
    simp only [Map.contents, List.map_map, List.mem_map, Function.comp]
    exact ⟨a, ha, rfl⟩
  | some b =>
    obtain ⟨h1, h2⟩ := findNode_some hn
    have : b = a := h.node_unique h1 ha h2
    subst this
    rw [hn] at hf
    exact KV.lookup_map hf

theorem MapInv.step_ok {c : Cfg} (hc : c.WF) {ty : MapTy} (hnode : c.ptrSize + ty.sizeK + ty.sizeV ≤ c.sizeofBlock)
    {live : List Nat} {mem0 : Mem} {s : State} {m : Map} {kv : KV} (h : MapInv c ty live mem0 s m kv) (op : MapOp)
    (hop : MapTyped ty op)
    (hfit : makesNew kv op = true → Fits (roomy c) ty (c.numBlocks - live.length) kv.length m.bucketCount m.hasArray) :
    ∃ s' m', mapStep c ty s m op = .ok ((idealMapStep ty.sizeV kv op).1, s', m') ∧
      MapInv c ty live mem0 s' m' (idealMapStep ty.sizeV kv op).2 ∧
      m'.bucketCount = (if makesNew kv op then ty.rehash m.bucketCount kv.length else none).getD m.bucketCount ∧
      m'.hasArray = (m.hasArray || (if makesNew kv op then ty.rehash m.bucketCount kv.length else none).isSome) := by
  cases op with
  | assign key value k1 k2 =>
    obtain ⟨hk, hv⟩ := hop
    simp only [makesNew, decide_eq_true_eq] at hfit ⊢
    obtain ⟨a, s1, m1, e1, i1, n1, y1, b1, r1⟩ := h.nodeFor_ok hc hnode key hk k1 k2 hfit
    obtain ⟨s2, e2, i2⟩ := i1.setValue hc hnode n1 y1 hv
    refine ⟨s2, m1, ?_, ?_, b1, r1⟩
    · simp only [mapStep, e1, Outcome.ok_bind, e2, idealMapStep, Outcome.pure_eq]
    · rw [KV.ensure_set] at i2; exact i2
  | subscript key k1 k2 =>
    simp only [makesNew, decide_eq_true_eq] at hfit ⊢
    obtain ⟨a, s1, m1, e1, i1, n1, y1, b1, r1⟩ := h.nodeFor_ok hc hnode key hop k1 k2 hfit
    have hl := i1.lookup n1
    rw [y1] at hl
    have e2 := i1.own.load hc (a := a) (by simp [n1]) (off := c.ptrSize + ty.sizeK) (n := ty.sizeV) (by omega)
    have hstep : mapStep c ty s m (.subscript key k1 k2) = .ok (.value (valueAt c ty s1.mem a), s1, m1) := by
      simp only [mapStep, e1, Outcome.ok_bind, e2, Outcome.pure_eq]; rfl
    by_cases hin : key ∈ kv.map (·.1)
    · simp only [KV.ensure, if_pos hin] at hl i1
      refine ⟨s1, m1, ?_, ?_, b1, r1⟩
      · rw [hstep]; simp only [idealMapStep, hl]
      · simp only [idealMapStep, hl]; exact i1
    · have hnone := KV.lookup_none.2 hin
      simp only [KV.ensure, if_neg hin] at hl i1
      have hz : valueAt c ty s1.mem a = List.replicate ty.sizeV 0 := by
        simp [KV.lookup] at hl; exact hl.symm
      refine ⟨s1, m1, ?_, ?_, b1, r1⟩
      · rw [hstep, hz]; simp only [idealMapStep, hnone]
      · simp only [idealMapStep, hnone, KV.put, if_neg hin]; exact i1
  | find key =>
    simp only [mapStep, idealMapStep, makesNew]
    have hf := h.find key
    cases hn : findNode c ty s m key with
    | none =>
      rw [hn] at hf
      refine ⟨s, m, ?_, h, by simp, by simp⟩
      simp only [KV.lookup, hf]; rfl
    | some a =>
      obtain ⟨h1, h2⟩ := findNode_some hn
      have hl := h.lookup h1
      rw [h2] at hl
      refine ⟨s, m, ?_, h, by simp, by simp⟩
      have e2 := h.own.load hc (a := a) (by simp [h1]) (off := c.ptrSize + ty.sizeK) (n := ty.sizeV) (by omega)
      simp only [e2, Outcome.ok_bind, Outcome.pure_eq, hl]; rfl
  | erase key =>
    simp only [mapStep, idealMapStep, makesNew]
    cases hn : findNode c ty s m key with
    | none =>
      have hout : key ∉ kv.map (·.1) := by have := findNode_none hn; rwa [h.contents] at this
      refine ⟨s, m, by rw [if_neg hout], ?_, by simp, by simp⟩
      have : kv.remove key = kv := by
        simp only [KV.remove, List.filter_eq_self]
        intro p hp
        simp only [bne_iff_ne, ne_eq]
        exact fun e => hout (e ▸ List.mem_map_of_mem hp)
      rw [this]; exact h
    | some a =>
      obtain ⟨h1, h2⟩ := findNode_some hn
      have hin : key ∈ kv.map (·.1) := by
        rw [← h.contents]
        simp only [Map.contents, List.map_map, List.mem_map, Function.comp]
        exact ⟨a, h1, h2⟩
      obtain ⟨hd1, hd2⟩ := h.disjoint hc h1
      have hnd : m.nodes.Nodup := (List.nodup_append.1 (List.nodup_append.1 (h.own.nodup hc)).2.1).1
      have hperm : (m.arrayBlocks ++ (m.nodes ++ live)).Perm (a :: (m.arrayBlocks ++ (m.nodes.erase a ++ live))) := by
        refine ((List.perm_cons_erase h1).append_right live |>.append_left m.arrayBlocks).trans ?_
        simp only [List.cons_append]
        exact List.perm_middle
      obtain ⟨s1, e1, o1, f1⟩ := (h.own.perm hperm).dealloc hc
      refine ⟨s1, { m with nodes := m.nodes.erase a }, ?_, ?_, by simp, by simp [Map.hasArray]⟩
      · simp only [e1, Outcome.ok_bind, Outcome.pure_eq, if_pos hin]
      · refine ⟨o1, ?_, ?_, ?_⟩
        · intro b hb x hx1 hx2
          have := hd2 b hb
          rw [f1 x (by omega)]; exact h.frame b hb x hx1 hx2
        · rw [← h.contents]
          simp only [Map.contents, KV.remove, List.filter_map]
          rw [hnd.erase_eq_filter]
          have : (m.nodes.filter fun b => b != a) =
              m.nodes.filter ((fun p : List Byte × List Byte => p.1 != key) ∘ fun b => (keyAt c ty s.mem b, valueAt c ty s.mem b)) := by
            refine List.filter_congr ?_
            intro b hb
            simp only [Function.comp]
            by_cases hba : b = a
            · subst hba; simp [h2]
            · have hkb : keyAt c ty s.mem b ≠ key := fun e => hba (h.node_unique hb h1 (e.trans h2.symm))
              have x1 : (b != a) = true := by simpa using hba
              have x2 : (keyAt c ty s.mem b != key) = true := by simpa using hkb
              rw [x1, x2]
          rw [← this]
          refine List.map_congr_left ?_
          intro b hb
          simp only [List.mem_filter, bne_iff_ne, ne_eq] at hb
          have hd := hd1 b hb.1 hb.2
          have := node_congr hnode (m1 := s1.mem) (m2 := s.mem) (a := b) (fun x hx1 hx2 => f1 x (by omega))
          rw [this.1, this.2]
        · exact (List.filter_sublist.map _).nodup h.keys

theorem MapInv.step_refused {c : Cfg} (hc : c.WF) {ty : MapTy} (hnode : c.ptrSize + ty.sizeK + ty.sizeV ≤ c.sizeofBlock)
    {live : List Nat} {mem0 : Mem} {s : State} {m : Map} {kv : KV} (h : MapInv c ty live mem0 s m kv) (op : MapOp)
    (hop : MapTyped ty op) (hnew : makesNew kv op = true)
    (hfit : ¬ Fits (granted c) ty (c.numBlocks - live.length) kv.length m.bucketCount m.hasArray) :
    if c.exceptions then ∃ s', mapStep c ty s m op = .ok (.badAlloc, s', m) ∧ MapInv c ty live mem0 s' m kv
    else mapStep c ty s m op = .ub .nullDeref := by
  cases op with
  | assign key value k1 k2 =>
    simp only [makesNew, decide_eq_true_eq] at hnew
    have := h.insertNew_refused hc hnode key hop.1 k1 k2 hfit
    simp only [mapStep, h.nodeFor_new key k1 k2 hnew]
    cases hx : c.exceptions
    · simp only [hx, Bool.false_eq_true, if_false] at this ⊢
      rw [this]; rfl
    · simp only [hx, if_true] at this ⊢
      obtain ⟨s', e, i⟩ := this
      exact ⟨s', by rw [e]; rfl, i⟩
  | subscript key k1 k2 =>
    simp only [makesNew, decide_eq_true_eq] at hnew
    have := h.insertNew_refused hc hnode key hop k1 k2 hfit
    simp only [mapStep, h.nodeFor_new key k1 k2 hnew]
    cases hx : c.exceptions
    · simp only [hx, Bool.false_eq_true, if_false] at this ⊢
      rw [this]; rfl
    · simp only [hx, if_true] at this ⊢
      obtain ⟨s', e, i⟩ := this
      exact ⟨s', by rw [e]; rfl, i⟩
  | find key => cases hnew
  | erase key => cases hnew

theorem MapInv.step_trap {c : Cfg} (hc : c.WF) {ty : MapTy} (hnode : c.ptrSize + ty.sizeK + ty.sizeV ≤ c.sizeofBlock)
    {live : List Nat} {mem0 : Mem} {s : State} {m : Map} {kv : KV} (h : MapInv c ty live mem0 s m kv) (op : MapOp)
    (hop : MapTyped ty op) (hnew : makesNew kv op = true)
    (hfit : Fits (granted c) ty (c.numBlocks - live.length) kv.length m.bucketCount m.hasArray)
    (hbig : ¬ Fits (roomy c) ty (c.numBlocks - live.length) kv.length m.bucketCount m.hasArray) :
    mapStep c ty s m op = .ub .outOfBounds := by
  cases op with
  | assign key value k1 k2 =>
    simp only [makesNew, decide_eq_true_eq] at hnew
    simp only [mapStep, h.nodeFor_new key k1 k2 hnew, h.insertNew_trap hc hnode key hop.1 k1 k2 hfit hbig, Outcome.ub_bind]
  | subscript key k1 k2 =>
    simp only [makesNew, decide_eq_true_eq] at hnew
    simp only [mapStep, h.nodeFor_new key k1 k2 hnew, h.insertNew_trap hc hnode key hop k1 k2 hfit hbig, Outcome.ub_bind]
  | find key => cases hnew
  | erase key => cases hnew

theorem MapInv.run_ok {c : Cfg} (hc : c.WF) {ty : MapTy} (hnode : c.ptrSize + ty.sizeK + ty.sizeV ≤ c.sizeofBlock)
    {live : List Nat} {mem0 : Mem} (ops : List MapOp) : ∀ {s : State} {m : Map} {kv : KV}, MapInv c ty live mem0 s m kv →
    (∀ op ∈ ops, MapTyped ty op) → MapRoom (roomy c) ty (c.numBlocks - live.length) kv m.bucketCount m.hasArray ops →
    ∃ s' m', mapRun c ty s m ops = .ok ((idealMapRun ty.sizeV kv ops).1, s', m') ∧
      MapInv c ty live mem0 s' m' (idealMapRun ty.sizeV kv ops).2 := by
  induction ops with
  | nil => intro s m kv h _ _; exact ⟨s, m, rfl, h⟩
  | cons op ops ih =>
    intro s m kv h hop hr
    obtain ⟨s1, m1, e1, i1, b1, r1⟩ := h.step_ok hc hnode op (hop op (by simp)) hr.1
    have hr2 := hr.2
    rw [← b1, ← r1] at hr2
    obtain ⟨s2, m2, e2, i2⟩ := ih i1 (fun o ho => hop o (by simp [ho])) hr2
    refine ⟨s2, m2, ?_, i2⟩
    simp only [mapRun, e1, Outcome.ok_bind, e2, Outcome.pure_eq, idealMapRun]

theorem MapInv.empty {c : Cfg} (ty : MapTy) {s : State} {live : List Nat} (h : Own c s live) : MapInv c ty live s.mem s Map.empty [] where
  own := by simpa [Map.arrayBlocks, Map.empty] using h
  frame := fun _ _ _ _ _ => rfl
  contents := rfl
  keys := by simp

theorem deallocateAll_ok {c : Cfg} (hc : c.WF) (l : List Nat) : ∀ {s : State} {L : List Nat}, Own c s (l ++ L) →
    ∃ s', deallocateAll c s l = .ok s' ∧ Own c s' L ∧ ∀ b ∈ L, ∀ x, b ≤ x → x < b + c.sizeofBlock → s'.mem x = s.mem x := by
  induction l with
  | nil => intro s L h; exact ⟨s, rfl, h, fun _ _ _ _ _ => rfl⟩
  | cons a l ih =>
    intro s L h
    obtain ⟨s1, e1, o1, f1⟩ := Own.dealloc hc h
    obtain ⟨s2, e2, o2, f2⟩ := ih o1
    refine ⟨s2, by simp only [deallocateAll, e1, Outcome.ok_bind, e2], o2, ?_⟩
    intro b hb x hx1 hx2
    have hn := h.nodup hc
    simp only [List.cons_append, List.nodup_cons] at hn
    have := h.disjoint hc (a := a) (b := b) (by simp) (by simp [hb]) (fun e => hn.1 (by simp [e, hb]))
    rw [f2 b hb x hx1 hx2, f1 x (by omega)]

theorem MapInv.destroy {c : Cfg} (hc : c.WF) {ty : MapTy} {live : List Nat} {mem0 : Mem} {s : State} {m : Map} {kv : KV}
    (h : MapInv c ty live mem0 s m kv) : ∃ s', mapDestroy c s m = .ok s' ∧ Own c s' live ∧ Frame c live mem0 s'.mem := by
  simp only [mapDestroy]
  by_cases h0 : m.buckets = 0
  · have ho := h.own
    simp only [Map.arrayBlocks, if_pos h0, List.nil_append] at ho
    obtain ⟨s1, e1, o1, f1⟩ := deallocateAll_ok hc m.nodes ho
    refine ⟨s1, ?_, o1, fun b hb x hx1 hx2 => by rw [f1 b hb x hx1 hx2]; exact h.frame b hb x hx1 hx2⟩
    have happ : ∀ (l : List Nat) (s s' : State), deallocateAll c s l = .ok s' → deallocateAll c s (l ++ [0]) = .ok s' := by
      intro l
      induction l with
      | nil => intro s s' e; cases e; rfl
      | cons a l ih =>
        intro s s' e
        simp only [deallocateAll] at e
        obtain ⟨⟨r, s2⟩, e2, e3⟩ := Outcome.bind_eq_ok.1 e
        simp only [List.cons_append, deallocateAll, e2, Outcome.ok_bind]
        exact ih _ _ e3
    rw [h0]; exact happ _ _ _ e1
  · have ho := h.own
    simp only [Map.arrayBlocks, if_neg h0] at ho
    have hp : ([m.buckets] ++ (m.nodes ++ live)).Perm ((m.nodes ++ [m.buckets]) ++ live) := by
      rw [List.append_assoc]
      simp only [List.singleton_append]
      exact List.perm_middle.symm
    obtain ⟨s1, e1, o1, f1⟩ := deallocateAll_ok hc (m.nodes ++ [m.buckets]) (ho.perm hp)
    exact ⟨s1, e1, o1, fun b hb x hx1 hx2 => by rw [f1 b hb x hx1 hx2]; exact h.frame b hb x hx1 hx2⟩

/-- The property as stated in `properties.jsonl`: if the allocator accepts every request of the map and does not run out of blocks, the map is a map. -/
def C88_Statement : Prop :=
  ∀ (c : Cfg) (ty : MapTy), c.WF → c.ptrSize + ty.sizeK + ty.sizeV ≤ c.blockSize →
  ∀ (s : State) (live : List Nat), History c s live → ∀ ops : List MapOp, (∀ op ∈ ops, MapTyped ty op) →
    MapRoom (granted c) ty (c.numBlocks - live.length) [] 1 false ops →
    ∃ s' m, mapRun c ty s Map.empty ops = .ok ((idealMapRun ty.sizeV [] ops).1, s', m)

/-- The whole behaviour: a call for which there is no block left, or which wants more buckets than the allocator grants, is refused and changes nothing (with exceptions;
without, a null pointer is followed). If the buckets are granted and do not fit into a block, memory beyond it is written. Otherwise the map is a map. -/
def fullMapRun (c : Cfg) (ty : MapTy) (free : Nat) : KV → (buckets : Nat) → (array : Bool) → List MapOp → Outcome (List Answer × KV)
  | kv, _, _, [] => .ok ([], kv)
  | kv, b, array, op :: ops =>
    if makesNew kv op = true ∧ ¬ Fits (granted c) ty free kv.length b array then
      if c.exceptions then fullMapRun c ty free kv b array ops >>= fun r => .ok (.badAlloc :: r.1, r.2) else .ub .nullDeref
    else if makesNew kv op = true ∧ ¬ Fits (roomy c) ty free kv.length b array then .ub .outOfBounds
    else
      let grown := if makesNew kv op then ty.rehash b kv.length else none
      fullMapRun c ty free (idealMapStep ty.sizeV kv op).2 (grown.getD b) (array || grown.isSome) ops >>= fun r =>
        .ok ((idealMapStep ty.sizeV kv op).1 :: r.1, r.2)

theorem MapInv.run_full {c : Cfg} (hc : c.WF) {ty : MapTy} (hnode : c.ptrSize + ty.sizeK + ty.sizeV ≤ c.sizeofBlock)
    {live : List Nat} {mem0 : Mem} (ops : List MapOp) : ∀ {s : State} {m : Map} {kv : KV}, MapInv c ty live mem0 s m kv →
    (∀ op ∈ ops, MapTyped ty op) →
    match fullMapRun c ty (c.numBlocks - live.length) kv m.bucketCount m.hasArray ops with
    | .ub u => mapRun c ty s m ops = .ub u
    | .ok (as, kv') => ∃ s' m', mapRun c ty s m ops = .ok (as, s', m') ∧ MapInv c ty live mem0 s' m' kv' := by
  induction ops with
  | nil => intro s m kv h _; exact ⟨s, m, rfl, h⟩
  | cons op ops ih =>
    intro s m kv h hop
    simp only [fullMapRun, mapRun]
    by_cases hno : makesNew kv op = true ∧ ¬ Fits (granted c) ty (c.numBlocks - live.length) kv.length m.bucketCount m.hasArray
    · rw [if_pos hno]
      have hs := h.step_refused hc hnode op (hop op (by simp)) hno.1 hno.2
      cases hx : c.exceptions
      · simp only [hx, Bool.false_eq_true, if_false] at hs ⊢
        rw [hs]; rfl
      · simp only [hx, if_true] at hs ⊢
        obtain ⟨s2, e2, i2⟩ := hs
        have h3 := ih i2 (fun o ho => hop o (by simp [ho]))
        rw [e2]
        simp only [Outcome.ok_bind]
        cases hf : fullMapRun c ty (c.numBlocks - live.length) kv m.bucketCount m.hasArray ops with
        | ub u => rw [hf] at h3; simp only at h3; rw [h3]; rfl
        | ok r =>
          obtain ⟨as, kv'⟩ := r
          rw [hf] at h3
          obtain ⟨s3, m3, e3, i3⟩ := h3
          rw [e3]
          exact ⟨s3, m3, rfl, i3⟩
    · rw [if_neg hno]
      have hgr : makesNew kv op = true → Fits (granted c) ty (c.numBlocks - live.length) kv.length m.bucketCount m.hasArray := fun hnew =>
        Decidable.byContradiction fun hf => hno ⟨hnew, hf⟩
      by_cases htr : makesNew kv op = true ∧ ¬ Fits (roomy c) ty (c.numBlocks - live.length) kv.length m.bucketCount m.hasArray
      · rw [if_pos htr, h.step_trap hc hnode op (hop op (by simp)) htr.1 (hgr htr.1) htr.2]
        rfl
      · rw [if_neg htr]
        obtain ⟨s2, m2, e2, i2, b2, r2⟩ := h.step_ok hc hnode op (hop op (by simp)) (fun hnew =>
          Decidable.byContradiction fun hf => htr ⟨hnew, hf⟩)
        have h3 := ih i2 (fun o ho => hop o (by simp [ho]))
        rw [b2, r2] at h3
        rw [e2]
        simp only [Outcome.ok_bind]
        cases hf : fullMapRun c ty (c.numBlocks - live.length) (idealMapStep ty.sizeV kv op).2
            ((if makesNew kv op then ty.rehash m.bucketCount kv.length else none).getD m.bucketCount)
            (m.hasArray || (if makesNew kv op then ty.rehash m.bucketCount kv.length else none).isSome) ops with
        | ub u => rw [hf] at h3; simp only at h3; rw [h3]; rfl
        | ok r =>
          obtain ⟨as, kv'⟩ := r
          rw [hf] at h3
          obtain ⟨s3, m3, e3, i3⟩ := h3
          rw [e3]
          exact ⟨s3, m3, rfl, i3⟩

/-- C88, partial: what every sequence of calls on a new map does, in every pool: it does what `fullMapRun` says, memory holds the map's contents, the blocks of all others keep
every byte, during the calls and after the destructor, and the destructor leaves exactly the others' blocks handed out (also after refused calls). Missing: the undefined
cases of `fullMapRun`. -/
theorem C88_behaviour_partial {c : Cfg} (hc : c.WF) {ty : MapTy} (hnode : c.ptrSize + ty.sizeK + ty.sizeV ≤ c.sizeofBlock)
    {s : State} {live : List Nat} (h : History c s live) (ops : List MapOp) (hops : ∀ op ∈ ops, MapTyped ty op) :
    match fullMapRun c ty (c.numBlocks - live.length) [] 1 false ops with
    | .ub u => mapRun c ty s Map.empty ops = .ub u
    | .ok (as, kv) => ∃ s' m, mapRun c ty s Map.empty ops = .ok (as, s', m) ∧
        m.contents c ty s'.mem = kv ∧ Frame c live s.mem s'.mem ∧
        ∃ s'', mapDestroy c s' m = .ok s'' ∧ Own c s'' live ∧ Frame c live s.mem s''.mem := by
  have hr := (MapInv.empty ty (Own.of_history h)).run_full hc hnode ops hops
  change match fullMapRun c ty (c.numBlocks - live.length) [] 1 false ops with
    | .ub u => mapRun c ty s Map.empty ops = .ub u
    | .ok (as, kv) => ∃ s' m', mapRun c ty s Map.empty ops = .ok (as, s', m') ∧ MapInv c ty live s.mem s' m' kv at hr
  cases hf : fullMapRun c ty (c.numBlocks - live.length) [] 1 false ops with
  | ub u => rw [hf] at hr; exact hr
  | ok r =>
    obtain ⟨as, kv⟩ := r
    rw [hf] at hr
    obtain ⟨s', m, e, i⟩ := hr
    obtain ⟨s'', e2, o2, f2⟩ := i.destroy hc
    exact ⟨s', m, e, i.contents, i.frame, s'', e2, o2, f2⟩

/-- With three blocks of 60 bytes on the 32-bit board: the bucket array and two elements; the third is refused, and goes in after another one is erased. With eighty blocks
the 14th element gets 29 buckets, 116 bytes in a block of 64. -/
example : fullMapRun (ilp32 3 60 4096 true) ⟨1, 1, libstdcxxRehash⟩ 3 [] 1 false
      [.assign [1] [5] 0 0, .assign [2] [6] 0 0, .assign [3] [7] 0 0, .find [3], .erase [1], .assign [3] [7] 0 0, .find [3]] =
      .ok ([.done, .done, .badAlloc, .missing, .done, .done, .value [7]], [([3], [7]), ([2], [6])]) ∧
    fullMapRun (ilp32 80 60 4096 true) ⟨1, 1, libstdcxxRehash⟩ 80 [] 1 false ((List.range 14).map fun i => .assign [BitVec.ofNat 8 i] [0] 0 0) =
      .ub .outOfBounds := by decide +kernel

theorem fullMapRun_room (c : Cfg) (ty : MapTy) (free : Nat) (ops : List MapOp) : ∀ (kv : KV) (b : Nat) (array : Bool),
    (MapRoom (roomy c) ty free kv b array ops → fullMapRun c ty free kv b array ops = .ok (idealMapRun ty.sizeV kv ops)) ∧
    ∀ as kv', fullMapRun c ty free kv b array ops = .ok (as, kv') → as = (idealMapRun ty.sizeV kv ops).1 → MapRoom (roomy c) ty free kv b array ops := by
  have hrg : ∀ e b array, Fits (roomy c) ty free e b array → Fits (granted c) ty free e b array := by
    intro e b array
    simp only [Fits]
    cases ty.rehash b e with
    | none => exact id
    | some n => exact fun ⟨h1, h2⟩ => ⟨h1, h2.1⟩
  induction ops with
  | nil => intro kv b array; exact ⟨fun _ => rfl, fun _ _ _ _ => trivial⟩
  | cons op ops ih =>
    intro kv b array
    simp only [fullMapRun, MapRoom, idealMapRun]
    refine ⟨?_, ?_⟩
    · rintro ⟨h1, h2⟩
      rw [if_neg (fun hx => hx.2 (hrg _ _ _ (h1 hx.1))), if_neg (fun hx => hx.2 (h1 hx.1)), (ih _ _ _).1 h2]
      rfl
    · intro as kv' e has
      split at e
      · next hno =>
        exfalso
        split at e
        · obtain ⟨r, e1, e2⟩ := Outcome.bind_eq_ok.1 e
          simp only [Outcome.ok.injEq, Prod.mk.injEq] at e2
          rw [← e2.1] at has
          have hnew := hno.1
          simp only [List.cons.injEq] at has
          cases op with
          | assign key value k1 k2 => cases has.1
          | subscript key k1 k2 => have ha := has.1; simp only [idealMapStep] at ha; split at ha <;> cases ha
          | find key => cases hnew
          | erase key => cases hnew
        · cases e
      · split at e
        · cases e
        · next htr =>
          obtain ⟨r, e1, e2⟩ := Outcome.bind_eq_ok.1 e
          simp only [Outcome.ok.injEq, Prod.mk.injEq] at e2
          rw [← e2.1] at has
          simp only [List.cons.injEq] at has
          exact ⟨fun hnew => Decidable.byContradiction fun hf => htr ⟨hnew, hf⟩, (ih _ _ _).2 r.1 r.2 e1 has.2⟩

/-- C88, partial: a sequence of calls on a new map gets the answers of a finite map if and only if there is always a free block for a new node and for
new buckets, and the pointers to all buckets fit into one block. In every other case something is thrown or undefined. This holds for whatever policy
the library has about buckets. Missing: bucket arrays the allocator grants although they do not fit. -/
theorem C88_exact_partial {c : Cfg} (hc : c.WF) {ty : MapTy} (hnode : c.ptrSize + ty.sizeK + ty.sizeV ≤ c.sizeofBlock)
    {s : State} {live : List Nat} (h : History c s live) (ops : List MapOp) (hops : ∀ op ∈ ops, MapTyped ty op) :
    (∃ s' m, mapRun c ty s Map.empty ops = .ok ((idealMapRun ty.sizeV [] ops).1, s', m)) ↔
      MapRoom (roomy c) ty (c.numBlocks - live.length) [] 1 false ops := by
  have hb := C88_behaviour_partial hc hnode h ops hops
  obtain ⟨h1, h2⟩ := fullMapRun_room c ty (c.numBlocks - live.length) ops [] 1 false
  constructor
  · intro ⟨s', m, e⟩
    cases hf : fullMapRun c ty (c.numBlocks - live.length) [] 1 false ops with
    | ub u => rw [hf] at hb; simp only at hb; rw [hb] at e; cases e
    | ok r =>
      obtain ⟨as, kv⟩ := r
      rw [hf] at hb
      obtain ⟨s1, m1, e1, -⟩ := hb
      rw [e] at e1
      simp only [Outcome.ok.injEq, Prod.mk.injEq] at e1
      exact h2 as kv hf e1.1.symm
  · intro hr
    rw [h1 hr] at hb
    obtain ⟨s', m, e, -⟩ := hb
    exact ⟨s', m, e⟩

/-- C88, partial: and then memory holds the finite map, one node for each key; the blocks of all others keep every byte, during the calls and after the
destructor; and the destructor leaves exactly the others' blocks handed out. -/
theorem C88_map_partial {c : Cfg} (hc : c.WF) {ty : MapTy} (hnode : c.ptrSize + ty.sizeK + ty.sizeV ≤ c.sizeofBlock)
    {s : State} {live : List Nat} (h : History c s live) (ops : List MapOp) (hops : ∀ op ∈ ops, MapTyped ty op)
    (hroom : MapRoom (roomy c) ty (c.numBlocks - live.length) [] 1 false ops) :
    ∃ s' m, mapRun c ty s Map.empty ops = .ok ((idealMapRun ty.sizeV [] ops).1, s', m) ∧
      m.contents c ty s'.mem = (idealMapRun ty.sizeV [] ops).2 ∧ Frame c live s.mem s'.mem ∧
      ∃ s'', mapDestroy c s' m = .ok s'' ∧ Own c s'' live ∧ Frame c live s.mem s''.mem := by
  obtain ⟨s', m, e, i⟩ := (MapInv.empty ty (Own.of_history h)).run_ok hc hnode ops hops hroom
  obtain ⟨s'', e2, o2, f2⟩ := i.destroy hc
  exact ⟨s', m, e, i.contents, i.frame, s'', e2, o2, f2⟩

/-- The ideal map at work, and a pool with room for it: 16-byte blocks, 4-byte pointers, thirteen buckets would not fit, two do. -/
example : idealMapRun 1 [] [.assign [1] [5] 0 0, .subscript [2] 0 0, .assign [1] [6] 0 0, .find [1], .erase [2], .find [2]] =
    ([.done, .value [0], .done, .value [6], .done, .missing], [([1], [6])]) := by decide

example : MapRoom (roomy (ilp32 4 16 4096 false)) ⟨1, 1, fun b e => if e < b ∧ b ≠ 1 then none else some (2 * b)⟩ 4 [] 1 false
    [.assign [1] [5] 0 0, .subscript [2] 0 0] ∧
    ¬ MapRoom (roomy (ilp32 4 16 4096 false)) ⟨1, 1, libstdcxxRehash⟩ 4 [] 1 false [.assign [1] [5] 0 0, .subscript [2] 0 0] := by
  simp [MapRoom, makesNew, Fits, roomy, ilp32, idealMapStep, KV.put, libstdcxxRehash, Cfg.sizeofBlock, roundUp]

/-- `n` new elements one after the other. -/
def GrowRoom (accept : Nat → Prop) (ty : MapTy) (free : Nat) : (elements buckets : Nat) → (array : Bool) → Nat → Prop
  | _, _, _, 0 => True
  | e, b, array, n + 1 =>
    Fits accept ty free e b array ∧
      GrowRoom accept ty free (e + 1) ((ty.rehash b e).getD b) (array || (ty.rehash b e).isSome) n

theorem mapRoom_assigns (accept : Nat → Prop) (ty : MapTy) (free : Nat) (value : List Byte → List Byte) (keys : List (List Byte)) :
    ∀ (kv : KV) (b : Nat) (array : Bool), keys.Nodup → (∀ k ∈ keys, k ∉ kv.map (·.1)) →
      (MapRoom accept ty free kv b array (keys.map fun k => .assign k (value k) 0 0) ↔ GrowRoom accept ty free kv.length b array keys.length) := by
  induction keys with
  | nil => intros; exact Iff.rfl
  | cons k keys ih =>
    intro kv b array hn hk
    rw [List.nodup_cons] at hn
    have hk0 := hk k (by simp)
    have hnew : makesNew kv (.assign k (value k) 0 0) = true := by simpa [makesNew] using hk0
    have hput : kv.put k (value k) = (k, value k) :: kv := by simp only [KV.put, if_neg hk0]
    simp only [List.map_cons, MapRoom, hnew, if_true, forall_const, idealMapStep, List.length_cons, GrowRoom, hput]
    rw [ih _ _ _ hn.2 (by
      intro k' hk'
      simp only [List.map_cons, List.mem_cons, not_or]
      exact ⟨fun e => hn.1 (e ▸ hk'), hk k' (by simp [hk'])⟩)]
    rfl

theorem growRoom_within (accept : Nat → Prop) {ty : MapTy} (hty : ty.rehash = libstdcxxRehash) (free b : Nat) (hb : b ≠ 1) (k : Nat) :
    ∀ e n, e + k ≤ b → (GrowRoom accept ty free e b true (k + n) ↔ (k = 0 ∨ e + k + 1 ≤ free) ∧ GrowRoom accept ty free (e + k) b true n) := by
  induction k with
  | zero => intro e n h; simp
  | succ k ih =>
    intro e n h
    have hr : ty.rehash b e = none := by
      simp only [hty, libstdcxxRehash, if_neg hb]; rw [if_neg (by omega)]
    rw [show k + 1 + n = (k + n) + 1 by omega]
    simp only [GrowRoom, Fits, hr, Option.getD_none, Option.isSome_none, Bool.or_false, Bool.toNat_true]
    rw [ih (e + 1) n (by omega), show e + 1 + k = e + (k + 1) by omega]
    constructor
    · rintro ⟨h1, h2, h3⟩; exact ⟨by omega, h3⟩
    · rintro ⟨h1, h2⟩; exact ⟨by omega, by omega, h2⟩

/-- C88 for libstdc++, up to 13 elements: `n` different keys can be put into a new map exactly if `n + 1` blocks are free and 13 pointers fit
into one block (and 13 is at most `BlockSize`, which the allocator takes for the same thing). Missing: blocks too small for that. -/
theorem C88_libstdcxx_partial {c : Cfg} (hc : c.WF) {ty : MapTy} (hty : ty.rehash = libstdcxxRehash)
    (hnode : c.ptrSize + ty.sizeK + ty.sizeV ≤ c.sizeofBlock) {s : State} {live : List Nat} (h : History c s live)
    (keys : List (List Byte)) (value : List Byte → List Byte) (hkeys : keys.Nodup)
    (htyped : ∀ k ∈ keys, k.length = ty.sizeK ∧ (value k).length = ty.sizeV) (h0 : 0 < keys.length) (h13 : keys.length ≤ 13) :
    (∃ s' m, mapRun c ty s Map.empty (keys.map fun k => .assign k (value k) 0 0) = .ok (keys.map fun _ => .done, s', m)) ↔
      live.length + keys.length + 1 ≤ c.numBlocks ∧ 13 ≤ c.blockSize ∧ 13 * c.ptrSize ≤ c.sizeofBlock := by
  have hans : ∀ (ks : List (List Byte)) (kv : KV), (idealMapRun ty.sizeV kv (ks.map fun k => .assign k (value k) 0 0)).1 = ks.map fun _ => .done := by
    intro ks
    induction ks with
    | nil => intro kv; rfl
    | cons k ks ih => intro kv; simp only [List.map_cons, idealMapRun, idealMapStep]; rw [ih]
  have := C88_exact_partial hc hnode h (keys.map fun k => .assign k (value k) 0 0) (by
    intro op hop
    obtain ⟨k, hk, rfl⟩ := List.mem_map.1 hop
    exact htyped k hk)
  rw [hans] at this
  rw [this, mapRoom_assigns _ _ _ _ _ _ _ _ hkeys (by simp)]
  obtain ⟨n, hn⟩ : ∃ n, keys.length = n + 1 := ⟨keys.length - 1, by omega⟩
  rw [hn]
  have hr : ty.rehash 1 0 = some 13 := by rw [hty]; rfl
  simp only [GrowRoom, Fits, List.length_nil, hr, Bool.toNat_false, Option.getD_some, Option.isSome_some, Bool.false_or, roomy]
  have := growRoom_within (roomy c) hty (c.numBlocks - live.length) 13 (by decide) n 1 0 (by omega)
  rw [Nat.add_zero] at this
  simp only [Nat.zero_add]
  rw [this]
  simp only [GrowRoom, and_true]
  omega

/-- C88: on a 64-bit machine no pool whatsoever lets a map of libstdc++ have 30 elements. -/
theorem C88_thirty_elements {numBlocks blockSize base : Nat} {exceptions : Bool} (hc : (lp64 numBlocks blockSize base exceptions).WF)
    {ty : MapTy} (hty : ty.rehash = libstdcxxRehash) (hnode : 8 + ty.sizeK + ty.sizeV ≤ blockSize)
    {s : State} {live : List Nat} (h : History (lp64 numBlocks blockSize base exceptions) s live) (keys : List (List Byte)) (value : List Byte → List Byte)
    (hkeys : keys.Nodup) (htyped : ∀ k ∈ keys, k.length = ty.sizeK ∧ (value k).length = ty.sizeV) (h30 : 30 ≤ keys.length) :
    ¬ ∃ s' m, mapRun (lp64 numBlocks blockSize base exceptions) ty s Map.empty (keys.map fun k => .assign k (value k) 0 0) =
      .ok (keys.map fun _ => .done, s', m) := by
  have hans : ∀ (ks : List (List Byte)) (kv : KV), (idealMapRun ty.sizeV kv (ks.map fun k => .assign k (value k) 0 0)).1 = ks.map fun _ => .done := by
    intro ks
    induction ks with
    | nil => intro kv; rfl
    | cons k ks ih => intro kv; simp only [List.map_cons, idealMapRun, idealMapStep]; rw [ih]
  have hsz := hc.sizes.1
  have hbs : blockSize ≤ 255 := hc.blockSize_le
  have hmax : (lp64 numBlocks blockSize base exceptions).sizeofBlock ≤ 256 := by
    simp only [lp64, Cfg.sizeofBlock, roundUp]
    have : max blockSize (max 8 32) ≤ 255 := by omega
    omega
  have := C88_exact_partial (ty := ty) hc (by simp only [lp64] at hsz ⊢; omega) h (keys.map fun k => .assign k (value k) 0 0) (by
    intro op hop
    obtain ⟨k, hk, rfl⟩ := List.mem_map.1 hop
    exact htyped k hk)
  rw [hans] at this
  rw [this, mapRoom_assigns _ _ _ _ _ _ _ _ hkeys (by simp)]
  obtain ⟨n, hn⟩ : ∃ n, keys.length = 12 + (15 + (1 + n) + 1) + 1 := ⟨keys.length - 30, by omega⟩
  rw [hn]
  intro hg
  have hg1 := hg.2
  rw [show ty.rehash 1 ([] : KV).length = some 13 by rw [hty]; rfl] at hg1
  simp only [List.length_nil, Option.getD_some, Option.isSome_some, Bool.or_true, Nat.zero_add] at hg1
  have hg2 := ((growRoom_within _ hty _ 13 (by decide) 12 1 _ (by omega)).1 hg1).2
  have hg3 := hg2.2
  rw [show ty.rehash 13 (1 + 12) = some 29 by rw [hty]; rfl] at hg3
  simp only [Option.getD_some, Option.isSome_some, Bool.or_true] at hg3
  have hg4 := ((growRoom_within _ hty _ 29 (by decide) 15 (1 + 12 + 1) _ (by omega)).1 hg3).2
  rw [Nat.add_comm 1 n] at hg4
  have hg5 := hg4.1
  simp only [Fits] at hg5
  rw [show ty.rehash 29 (1 + 12 + 1 + 15) = some 59 by rw [hty]; rfl] at hg5
  have := hg5.2.2
  simp only [lp64] at this hmax
  omega

/-! ## C89: the container tests of the validation suite -/

/-- `s` is as good as new for everyone else: exactly the blocks `live` are handed out, and their contents are those in `mem0`. -/
def CleanedUp (c : Cfg) (live : List Nat) (mem0 : Mem) (s : State) : Prop := Own c s live ∧ Frame c live mem0 s.mem

theorem VecInv.destroy {c : Cfg} (hc : c.WF) {t : Nat} {live : List Nat} {mem0 : Mem} {s : State} {v : Vec} {l : List (List Byte)}
    (h : VecInv c t live mem0 s v l) : ∃ s', vecDestroy c s v = .ok s' ∧ CleanedUp c live mem0 s' := by
  obtain ⟨r, s'', e2, o2, f2⟩ := Own.dealloc_vec hc h.own
  refine ⟨s'', by simp [vecDestroy, e2], o2, ?_⟩
  intro b hb x hx1 hx2
  rw [f2 b hb x hx1 hx2]; exact h.frame b hb x hx1 hx2

/-- The property as stated in `properties.jsonl`: on every allocator meeting the stated minimum requirements the four tests pass. -/
def C89_Statement : Prop :=
  ∀ c : Cfg, c.WF → ∀ s : State, History c s [] → ∀ k : Nat,
    (vectorMinimumBlockCount ≤ c.numBlocks → vectorMinimumBlockSize ≤ c.blockSize →
      (∃ s', testVector c ⟨1, libstdcxxGrow⟩ k s = .ok (true, s')) ∧
      (∀ honoured, ∃ s', testVectorCapacity c ⟨1, libstdcxxGrow⟩ honoured k s = .ok (true, s')) ∧
      ∃ s', testEmplace c ⟨1, libstdcxxGrow⟩ k s = .ok (true, s')) ∧
    (mapMinimumBlockCount ≤ c.numBlocks → mapMinimumBlockSize ≤ c.blockSize → ∃ s', testUnorderedMap c libstdcxxRehash k s = .ok (true, s'))

/-- C89, partial: the three vector tests pass with every library, as soon as two blocks are free and blocks have at least ten bytes; and they clean up. -/
theorem C89_vector_partial {c : Cfg} (hc : c.WF) {grow : Nat → Nat → Nat} (hg : GrowOK grow) {s : State} {live : List Nat} (h : History c s live)
    (hfree : live.length + vectorMinimumBlockCount ≤ c.numBlocks) (hsize : vectorMinimumBlockSize ≤ c.blockSize) (honoured : Bool) (k : Nat) :
    (∃ s', testVector c ⟨1, grow⟩ k s = .ok (true, s') ∧ CleanedUp c live s.mem s') ∧
    (∃ s', testVectorCapacity c ⟨1, grow⟩ honoured k s = .ok (true, s') ∧ CleanedUp c live s.mem s') ∧
    (∃ s', testEmplace c ⟨1, grow⟩ k s = .ok (true, s') ∧ CleanedUp c live s.mem s') := by
  simp only [vectorMinimumBlockCount, vectorMinimumBlockSize] at hfree hsize
  have hb := hc.sizes.1
  have hroom : c.blockSize * (⟨1, grow⟩ : VecTy).sizeT ≤ c.sizeofBlock := by simpa using hb
  have h0 := VecInv.empty (c := c) 1 (Own.of_history h)
  refine ⟨?_, ?_, ?_⟩
  · have h1 := VecInv.run hc (ty := ⟨1, grow⟩) hg hroom hfree
      [.pushBack [0x68] k, .pushBack [0x65] k, .pushBack [0x6c] k, .pushBack [0x6c] k, .pushBack [0x6f] k, .pushBack [0] k] h0 (by simp [VecTyped])
    have hi : idealVecRun c.blockSize [] [.pushBack [0x68] k, .pushBack [0x65] k, .pushBack [0x6c] k, .pushBack [0x6c] k, .pushBack [0x6f] k,
        .pushBack [0] k] = .ok ([.done, .done, .done, .done, .done, .done], [[0x68], [0x65], [0x6c], [0x6c], [0x6f], [0]]) := by
      simp [idealVecRun, idealVecStep, show 0 < c.blockSize by omega, show 1 < c.blockSize by omega, show 2 < c.blockSize by omega,
        show 3 < c.blockSize by omega, show 4 < c.blockSize by omega, show 5 < c.blockSize by omega]
    rw [hi] at h1
    obtain ⟨s1, v1, e1, i1⟩ := h1
    have h2 := i1.step hc (ty := ⟨1, grow⟩) hg hroom (.get 0) trivial (by intro n hn; cases hn)
    obtain ⟨s2, v2, e2, i2, -⟩ := h2
    have hlen := i2.len
    have hcap := i2.cap_le
    have hsl := i2.size_le
    simp only [List.length_cons, List.length_nil] at hlen
    have hst : v2.start ≠ 0 := fun e => by have := i2.start_cap e; omega
    have hbytes := i2.bytes
    rw [← hlen] at hbytes
    obtain ⟨s3, e3, c3⟩ := i2.destroy hc
    refine ⟨s3, ?_, c3⟩
    simp only [testVector, vecDo, e1, Outcome.ok_bind, Outcome.pure_eq]
    rw [if_pos (by decide)]
    simp only [e2, Outcome.ok_bind]
    simp only [load, if_neg hst]
    rw [if_pos (by omega)]
    simp only [Outcome.ok_bind, Nat.add_zero, e3]
    simp only [Nat.mul_one, Nat.zero_add, Nat.reduceAdd] at hbytes
    rw [hbytes]
    rfl
  · obtain ⟨s1, v1, e1, i1, c1⟩ := VecInv.reallocate hc (ty := ⟨1, grow⟩) h0 vectorMinimumBlockSize k (.inr (h0.room hfree)) none (by simp)
      (by simp [Vec.empty]) hsize (by simp only [vectorMinimumBlockSize]; omega)
    have hmax : vecMaxSize c = c.blockSize := rfl
    have e1' : vecStep c ⟨1, grow⟩ s Vec.empty (.reserve vectorMinimumBlockSize k) = .ok (.done, s1, v1) := by
      simp only [vecStep]
      rw [hmax, if_neg (by simp only [vectorMinimumBlockSize]; omega), if_pos (by decide)]
      exact e1
    have h2 : ∃ s2 v2 l, vecStep c ⟨1, grow⟩ s1 v1 (.shrinkToFit honoured k) = .ok (.done, s2, v2) ∧ VecInv c 1 live s.mem s2 v2 l ∧
        v2.cap ≤ vectorMinimumBlockSize := by
      simp only [vecStep]
      by_cases hh : honoured = true ∧ v1.cap ≠ v1.size
      · rw [if_pos hh]
        have hsl := i1.size_le
        obtain ⟨s2, v2, e2, i2, c2⟩ := VecInv.reallocate hc (ty := ⟨1, grow⟩) i1 v1.size k (.inr (i1.room hfree)) none (by simp) (by simp)
          (by rw [c1] at hsl; simp only [vectorMinimumBlockSize] at hsl; omega)
          (by rw [c1] at hsl; simp only [vectorMinimumBlockSize, Nat.mul_one] at hsl ⊢; omega)
        exact ⟨s2, v2, _, by simp [e2], i2, by omega⟩
      · rw [if_neg hh]
        exact ⟨s1, v1, _, rfl, i1, by omega⟩
    obtain ⟨s2, v2, l2, e2, i2, c2⟩ := h2
    obtain ⟨s3, e3, c3⟩ := i2.destroy hc
    refine ⟨s3, ?_, c3⟩
    simp only [testVectorCapacity, vecDo, vecRun, e1', Outcome.ok_bind, Outcome.pure_eq]
    rw [if_pos (by decide)]
    simp only [e2, Outcome.ok_bind]
    rw [if_pos (by decide)]
    simp only [e3, Outcome.ok_bind, c1, decide_eq_true c2]
    rfl
  · have h1 := VecInv.run hc (ty := ⟨1, grow⟩) hg hroom hfree [.reserve vectorMinimumBlockSize k, .pushBack [0x31] k] h0 (by simp [VecTyped])
    have hi : idealVecRun c.blockSize [] [.reserve vectorMinimumBlockSize k, .pushBack [0x31] k] = .ok ([.done, .done], [[0x31]]) := by
      simp [idealVecRun, idealVecStep, vectorMinimumBlockSize, show 0 < c.blockSize by omega, hsize]
    rw [hi] at h1
    obtain ⟨s1, v1, e1, i1⟩ := h1
    have h2 := i1.step hc (ty := ⟨1, grow⟩) hg hroom (.get 0) trivial (by intro n hn; cases hn)
    obtain ⟨s2, v2, e2, i2, -⟩ := h2
    obtain ⟨s3, e3, c3⟩ := i2.destroy hc
    refine ⟨s3, ?_, c3⟩
    simp only [testEmplace, vecDo, e1, Outcome.ok_bind, Outcome.pure_eq]
    rw [if_pos (by decide)]
    simp only [e2, e3, Outcome.ok_bind]
    rfl

theorem mapRoom_test (accept : Nat → Prop) (rehash : Nat → Nat → Option Nat) (free k : Nat) :
    MapRoom accept ⟨4, 4, rehash⟩ free [] 1 false (testMapOps k) ↔ GrowRoom accept ⟨4, 4, rehash⟩ free 0 1 false 3 := by
  have d12 : int32 1 ≠ int32 2 := by decide
  have d13 : int32 1 ≠ int32 3 := by decide
  have d23 : int32 2 ≠ int32 3 := by decide
  simp [testMapOps, MapRoom, makesNew, idealMapStep, KV.put, KV.lookup, GrowRoom, d12, d13, d23, d12.symm, d13.symm, d23.symm]

theorem mapTyped_test (rehash : Nat → Nat → Option Nat) (k : Nat) : ∀ op ∈ testMapOps k, MapTyped ⟨4, 4, rehash⟩ op := by
  intro op hop
  simp only [testMapOps, List.mem_cons, List.not_mem_nil, or_false] at hop
  rcases hop with rfl | rfl | rfl | rfl | rfl | rfl <;> simp [MapTyped, int32]

theorem idealMapRun_test (k : Nat) : (idealMapRun 4 [] (testMapOps k)).1 =
    [.done, .done, .done, .value (int32 2), .value (int32 4), .value (int32 8)] := rfl

/-- C89: the tests that reserve room fail on every pool with blocks of fewer than ten bytes: the number in their requirements is the least. -/
theorem C89_ten_bytes (c : Cfg) (ty : VecTy) (hsize : c.blockSize < 10) (honoured : Bool) (k : Nat) (s : State) :
    testVectorCapacity c ty honoured k s = .ok (false, s) ∧ (∀ s', testEmplace c ty k s ≠ .ok (true, s')) := by
  have hmax : vecMaxSize c = c.blockSize := rfl
  have h1 : vecStep c ty s Vec.empty (.reserve vectorMinimumBlockSize k) = .ok (.lengthError, s, Vec.empty) := by
    simp only [vecStep]
    rw [hmax, if_pos (by simp only [vectorMinimumBlockSize]; omega)]
  constructor
  · simp only [testVectorCapacity, vecDo, vecRun, h1, Outcome.ok_bind, Outcome.pure_eq]
    rfl
  · intro s'
    simp only [testEmplace, vecDo, vecRun, h1, Outcome.ok_bind, Outcome.pure_eq]
    cases vecStep c ty s Vec.empty (.pushBack [0x31] k) with
    | ub r => exact fun h => nomatch h
    | ok x => exact fun h => nomatch (show Outcome.ok (false, s) = Outcome.ok (true, s') from h)

/-- Blocks of nine bytes are too small for the tests. -/
example (s : State) : testVectorCapacity (ilp32 6 9 4096 true) ⟨1, libstdcxxGrow⟩ true 0 s = .ok (false, s) :=
  (C89_ten_bytes _ _ (by decide) _ _ _).1

/-- C89, partial: whatever the library's policy about buckets, the map test passes if and only if three elements can be put into a new map; and then it cleans up. -/
theorem C89_map_partial {c : Cfg} (hc : c.WF) (hnode : c.ptrSize + 8 ≤ c.sizeofBlock) (rehash : Nat → Nat → Option Nat) {s : State} {live : List Nat}
    (h : History c s live) (k : Nat) :
    ((∃ s', testUnorderedMap c rehash k s = .ok (true, s')) ↔
      GrowRoom (roomy c) ⟨4, 4, rehash⟩ (c.numBlocks - live.length) 0 1 false 3) ∧
    ∀ s', testUnorderedMap c rehash k s = .ok (true, s') → CleanedUp c live s.mem s' := by
  have hnode' : c.ptrSize + (⟨4, 4, rehash⟩ : MapTy).sizeK + (⟨4, 4, rehash⟩ : MapTy).sizeV ≤ c.sizeofBlock := by simp only; omega
  have hty := mapTyped_test rehash k
  have hideal := idealMapRun_test k
  have hroom := mapRoom_test (roomy c) rehash (c.numBlocks - live.length) k
  have hx := C88_exact_partial hc hnode' h (testMapOps k) hty
  rw [hideal, hroom] at hx
  have hpass : ∀ s', testUnorderedMap c rehash k s = .ok (true, s') →
      GrowRoom (roomy c) ⟨4, 4, rehash⟩ (c.numBlocks - live.length) 0 1 false 3 := by
    intro s' e
    refine hx.1 ?_
    simp only [testUnorderedMap] at e
    obtain ⟨⟨as, s1, m1⟩, e1, e2⟩ := Outcome.bind_eq_ok.1 e
    obtain ⟨s2, e3, e4⟩ := Outcome.bind_eq_ok.1 e2
    simp only [Outcome.pure_eq, Outcome.ok.injEq, Prod.mk.injEq, beq_iff_eq] at e4
    exact ⟨s1, m1, by rw [e1, e4.1]⟩
  have hrun : GrowRoom (roomy c) ⟨4, 4, rehash⟩ (c.numBlocks - live.length) 0 1 false 3 →
      ∃ s', testUnorderedMap c rehash k s = .ok (true, s') ∧ CleanedUp c live s.mem s' := by
    intro hr
    obtain ⟨s1, m1, e1, -, -, s2, e2, o2, f2⟩ := C88_map_partial hc hnode' h (testMapOps k) hty (hroom.2 hr)
    refine ⟨s2, ?_, o2, f2⟩
    simp only [hideal] at e1
    simp only [testUnorderedMap, e1, Outcome.ok_bind, e2, Outcome.pure_eq]
    simp
  refine ⟨⟨fun ⟨s', e⟩ => hpass s' e, fun hr => let ⟨s', e, _⟩ := hrun hr; ⟨s', e⟩⟩, ?_⟩
  intro s' e
  obtain ⟨s2, e2, c2⟩ := hrun (hpass s' e)
  rw [e] at e2
  simp only [Outcome.ok.injEq, Prod.mk.injEq, true_and] at e2
  exact e2 ▸ c2

theorem growRoom_three (accept : Nat → Prop) (free : Nat) :
    GrowRoom accept ⟨4, 4, libstdcxxRehash⟩ free 0 1 false 3 ↔ 4 ≤ free ∧ accept 13 := by
  simp [GrowRoom, Fits, libstdcxxRehash]
  constructor
  · rintro ⟨⟨-, h⟩, -, h2⟩; exact ⟨h2, h⟩
  · rintro ⟨h1, h2⟩; exact ⟨⟨by omega, h2⟩, by omega, by omega⟩

/-- C89, partial, for libstdc++: the map test passes if and only if four blocks are free and a block has room for thirteen pointers. -/
theorem C89_map_libstdcxx_partial {c : Cfg} (hc : c.WF) (hnode : c.ptrSize + 8 ≤ c.sizeofBlock) {s : State} {live : List Nat}
    (h : History c s live) (k : Nat) :
    (∃ s', testUnorderedMap c libstdcxxRehash k s = .ok (true, s')) ↔
      live.length + 4 ≤ c.numBlocks ∧ 13 ≤ c.blockSize ∧ 13 * c.ptrSize ≤ c.sizeofBlock := by
  rw [(C89_map_partial hc hnode libstdcxxRehash h k).1, growRoom_three]
  simp only [roomy]
  omega

theorem lp64_wf (exceptions : Bool) : (lp64 16 72 4096 exceptions).WF := by cases exceptions <;> constructor <;> decide
theorem ilp32_wf (exceptions : Bool) : (ilp32 16 72 4096 exceptions).WF := by cases exceptions <;> constructor <;> decide

/-- C88 is false: the test of the validation suite, on a 64-bit machine. -/
theorem C88_full_statement_fails : ¬ C88_Statement := by
  intro h
  have hh := History.start (c := lp64 16 72 4096 true) fun _ => 0
  have := (C88_exact_partial (ty := ⟨4, 4, libstdcxxRehash⟩) (lp64_wf true) (by decide) hh (testMapOps 0) (mapTyped_test _ 0)).1
    (h _ ⟨4, 4, libstdcxxRehash⟩ (lp64_wf true) (by decide) _ _ hh (testMapOps 0) (mapTyped_test _ 0) (by
      rw [mapRoom_test, growRoom_three]; exact ⟨by decide, by simp only [granted, lp64]; omega⟩))
  rw [mapRoom_test, growRoom_three] at this
  have := this.2.2
  revert this
  decide

/-- C89 is false: on a 64-bit machine the map test fails on the smallest pool which meets its requirements. -/
theorem C89_full_statement_fails : ¬ C89_Statement := by
  intro h
  have hh := History.start (c := lp64 16 72 4096 true) fun _ => 0
  have := (C89_map_libstdcxx_partial (lp64_wf true) (by decide) hh 0).1 ((h _ (lp64_wf true) _ hh 0).2 (by decide) (by decide))
  have := this.2.2
  revert this
  decide

/-- C89: what the pool does there. After the first element and its thirteen buckets, zeroed as the library does (104 bytes in a block of 80), there is one
more block, and then none, although thirteen blocks have never been handed out. -/
theorem C89_lost_blocks :
    (match Pool.run (lp64 16 72 4096 false) (Pool.init (lp64 16 72 4096 false) fun _ => 0) ([.allocate 1 0, .allocate 13 0] ++
        (List.range 104).map (fun i => .write (4096 + 80 + i) 0) ++ [.allocate 1 0, .allocate 1 0]) with
      | .ok (rs, _) => rs.filter (· != .done)
      | .ub _ => []) = [.ptr 4096, .ptr 4176, .ptr 4256, .null] := by
  decide +kernel

/-- C89: on the 32-bit board, the smallest pool which meets the requirements passes. -/
theorem C89_board (exceptions : Bool) (k : Nat) (mem : Mem) :
    ∃ s', testUnorderedMap (ilp32 16 72 4096 exceptions) libstdcxxRehash k (Pool.init (ilp32 16 72 4096 exceptions) mem) = .ok (true, s') :=
  (C89_map_libstdcxx_partial (ilp32_wf exceptions) (by cases exceptions <;> decide) (History.start mem) k).2 (by
    cases exceptions <;> decide)

end Uavcan.Stl
