import Verif.Model.Pool
import Verif.Spec.Pool

/-! Invariant of the sequential pool. -/

namespace Uavcan.Pool
open Uavcan.Spec

/-! ## Geometry of the blocks -/

theorem le_roundUp {n a : Nat} (ha : 0 < a) : n ≤ roundUp n a := by
  unfold roundUp
  have h1 := Nat.div_add_mod (n + a - 1) a
  have h2 := Nat.mod_lt (n + a - 1) ha
  rw [Nat.mul_comm] at h1
  omega

theorem roundUp_mod {n a : Nat} : roundUp n a % a = 0 := by
  unfold roundUp; exact Nat.mul_mod_left _ _

namespace Cfg
variable {c : Cfg}

theorem WF.sizes (h : c.WF) : c.blockSize ≤ c.sizeofBlock ∧ c.ptrSize ≤ c.sizeofBlock ∧ 0 < c.sizeofBlock := by
  have := le_roundUp (n := max c.blockSize (max c.ptrSize c.maxAlignSize)) h.maxAlign_pos
  have h1 := h.blockSize_pos
  simp only [sizeofBlock]
  omega

theorem isBlock_iff (h : c.WF) (a : Nat) : c.isBlock a = true ↔ ∃ i, i < c.numBlocks ∧ a = c.blockAddr i := by
  have hs := h.sizes.2.2
  simp only [isBlock, Bool.and_eq_true, decide_eq_true_eq, blockAddr]
  constructor
  · rintro ⟨⟨h1, h2⟩, h3⟩
    refine ⟨_, h3, ?_⟩
    have := Nat.div_add_mod (a - c.base) c.sizeofBlock
    rw [h2, Nat.mul_comm] at this
    omega
  · rintro ⟨i, hi, rfl⟩
    refine ⟨⟨by omega, ?_⟩, ?_⟩
    · rw [Nat.add_sub_cancel_left, Nat.mul_mod_left]
    · rw [Nat.add_sub_cancel_left, Nat.mul_div_cancel _ hs]; exact hi

theorem blockAddr_isBlock (h : c.WF) {i : Nat} (hi : i < c.numBlocks) : c.isBlock (c.blockAddr i) = true :=
  (isBlock_iff h _).2 ⟨i, hi, rfl⟩

theorem blockAddr_disjoint {i j : Nat} (hij : i ≠ j) :
    DisjointRanges (c.blockAddr i) c.sizeofBlock (c.blockAddr j) c.sizeofBlock := by
  simp only [DisjointRanges, blockAddr]
  rcases Nat.lt_or_gt_of_ne hij with h | h
  · left
    have := Nat.mul_le_mul_right c.sizeofBlock (show i + 1 ≤ j from h)
    rw [Nat.add_mul] at this; omega
  · right
    have := Nat.mul_le_mul_right c.sizeofBlock (show j + 1 ≤ i from h)
    rw [Nat.add_mul] at this; omega

theorem isBlock_disjoint (h : c.WF) {a b : Nat} (ha : c.isBlock a = true) (hb : c.isBlock b = true)
    (hab : a ≠ b) : DisjointRanges a c.sizeofBlock b c.sizeofBlock := by
  obtain ⟨i, -, rfl⟩ := (isBlock_iff h a).1 ha
  obtain ⟨j, -, rfl⟩ := (isBlock_iff h b).1 hb
  exact blockAddr_disjoint (fun e => hab (by rw [e]))

theorem isBlock_bounds (h : c.WF) {a : Nat} (ha : c.isBlock a = true) :
    c.base ≤ a ∧ a + c.sizeofBlock ≤ c.base + c.numBlocks * c.sizeofBlock := by
  obtain ⟨i, hi, rfl⟩ := (isBlock_iff h a).1 ha
  have := Nat.mul_le_mul_right c.sizeofBlock (show i + 1 ≤ c.numBlocks from hi)
  rw [Nat.add_mul] at this
  simp only [blockAddr]; omega

theorem isBlock_pos (h : c.WF) {a : Nat} (ha : c.isBlock a = true) : 0 < a := by
  have := isBlock_bounds h ha; have := h.base_pos; omega

theorem isBlock_lt (h : c.WF) {a : Nat} (ha : c.isBlock a = true) : a < 256 ^ c.ptrSize := by
  have h1 := isBlock_bounds h ha
  have h2 := h.inAddressSpace
  have h3 := h.sizes.2.2
  omega

theorem isBlock_aligned (h : c.WF) {a : Nat} (ha : c.isBlock a = true) : a % c.maxAlign = 0 := by
  obtain ⟨i, hi, rfl⟩ := (isBlock_iff h a).1 ha
  simp only [blockAddr]
  rw [Nat.add_mod, h.base_aligned, Nat.mul_mod]
  have : c.sizeofBlock % c.maxAlign = 0 := roundUp_mod
  rw [this]; simp

theorem zero_not_isBlock (h : c.WF) : c.isBlock 0 = false := by
  have := h.base_pos
  have h0 : ¬ c.base ≤ 0 := by omega
  simp only [isBlock, h0, decide_false, Bool.false_and]

end Cfg

/-! ## Pointers in memory -/

theorem loadLE_congr {m1 m2 : Mem} {a n : Nat} (h : ∀ x, a ≤ x → x < a + n → m1 x = m2 x) :
    loadLE m1 a n = loadLE m2 a n := by
  induction n generalizing a with
  | zero => rfl
  | succ n ih =>
    simp only [loadLE]
    rw [h a (by omega) (by omega), ih (fun x h1 h2 => h x (by omega) (by omega))]

theorem loadLE_bytes {m : Mem} {a n v : Nat} (h : ∀ i, i < n → m (a + i) = byteOf v i) :
    loadLE m a n = v % 256 ^ n := by
  induction n generalizing a v with
  | zero => simp [loadLE, Nat.mod_one]
  | succ n ih =>
    simp only [loadLE]
    rw [ih (v := v / 256) (fun i hi => by
      have := h (i + 1) (by omega)
      rw [show a + 1 + i = a + (i + 1) by omega, this]
      simp only [byteOf, Nat.pow_succ, Nat.mul_comm, Nat.div_div_eq_div_mul])]
    have h0 := h 0 (by omega)
    rw [Nat.add_zero] at h0
    rw [h0, Nat.pow_succ, Nat.mul_comm (256 ^ n) 256, Nat.mod_mul]
    simp [byteOf]

theorem loadPtr_storePtr_same (c : Cfg) (mem : Mem) (a v : Nat) (hv : v < 256 ^ c.ptrSize) :
    loadPtr c (storePtr c mem a v) a = v := by
  unfold loadPtr
  rw [loadLE_bytes (v := v)]
  · exact Nat.mod_eq_of_lt hv
  · intro i hi
    simp only [storePtr]
    rw [if_pos (by omega)]
    congr 1; omega

theorem storePtr_other (c : Cfg) (mem : Mem) (a v x : Nat) (h : x < a ∨ a + c.ptrSize ≤ x) :
    storePtr c mem a v x = mem x := by
  simp only [storePtr]; rw [if_neg (by omega)]

/-- `p` points to the free list `l` in memory. -/
def Chain (c : Cfg) (mem : Mem) : Nat → List Nat → Prop
  | p, [] => p = 0
  | p, a :: l => p = a ∧ Chain c mem (loadPtr c mem a) l

theorem Chain.congr {c : Cfg} {m1 m2 : Mem} {p : Nat} {l : List Nat} (h : Chain c m1 p l)
    (hag : ∀ a ∈ l, ∀ x, a ≤ x → x < a + c.ptrSize → m1 x = m2 x) : Chain c m2 p l := by
  induction l generalizing p with
  | nil => exact h
  | cons a l ih =>
    obtain ⟨h1, h2⟩ := h
    have : loadPtr c m1 a = loadPtr c m2 a := loadLE_congr (hag a (by simp))
    rw [this] at h2
    exact ⟨h1, ih h2 (fun b hb => hag b (by simp [hb]))⟩

theorem initLoop_chain {c : Cfg} (hc : c.WF) (i : Nat) (mem : Mem) (next : Nat) (l : List Nat)
    (hi : i ≤ c.numBlocks) (hch : Chain c mem next l) (hn : next < 256 ^ c.ptrSize)
    (hl : ∀ a ∈ l, ∃ j, i ≤ j ∧ a = c.blockAddr j) :
    Chain c (initLoop c mem next i) (if i = 0 then next else c.base) ((List.range i).map c.blockAddr ++ l) := by
  induction i generalizing mem next l with
  | zero => simpa [initLoop] using hch
  | succ i ih =>
    have hb : c.isBlock (c.blockAddr i) = true := Cfg.blockAddr_isBlock hc (by omega)
    have hps := hc.sizes.2.1
    have := ih (storePtr c mem (c.blockAddr i) next) (c.blockAddr i) (c.blockAddr i :: l) (by omega)
      ⟨rfl, by
        rw [loadPtr_storePtr_same c _ _ _ hn]
        refine hch.congr ?_
        intro a ha x hx1 hx2
        obtain ⟨j, hj, rfl⟩ := hl a ha
        have hd := Cfg.blockAddr_disjoint (c := c) (i := i) (j := j) (by omega)
        simp only [DisjointRanges] at hd
        rw [storePtr_other]
        omega⟩
      (Cfg.isBlock_lt hc hb)
      (by
        intro a ha
        rcases List.mem_cons.1 ha with rfl | ha
        · exact ⟨i, by omega, rfl⟩
        · obtain ⟨j, hj, rfl⟩ := hl a ha; exact ⟨j, by omega, rfl⟩)
    simp only [initLoop, List.range_succ, List.map_append, List.map_cons, List.map_nil, List.append_assoc,
      List.singleton_append]
    rw [if_neg (by omega)]
    by_cases h0 : i = 0
    · subst h0
      simpa [Cfg.blockAddr] using this
    · rwa [if_neg h0] at this

/-! ## The invariant -/

/-- The free list in memory is `free`; every block is either free or live, and none is twice. -/
structure Inv (c : Cfg) (s : State) (free live : List Nat) : Prop where
  chain : Chain c s.mem s.head free
  nodup : (free ++ live).Nodup
  all : ∀ a, a ∈ free ++ live ↔ c.isBlock a = true

theorem Inv.init {c : Cfg} (hc : c.WF) (mem : Mem) :
    Inv c (Pool.init c mem) ((List.range c.numBlocks).map c.blockAddr) [] := by
  have hn := hc.numBlocks_pos
  have hb : c.isBlock (c.blockAddr (c.numBlocks - 1)) = true := Cfg.blockAddr_isBlock hc (by omega)
  refine ⟨?_, ?_, ?_⟩
  · have := initLoop_chain hc (c.numBlocks - 1) (storePtr c (zeroStorage c mem) (c.blockAddr (c.numBlocks - 1)) 0)
      (c.blockAddr (c.numBlocks - 1)) [c.blockAddr (c.numBlocks - 1)] (by omega)
      ⟨rfl, loadPtr_storePtr_same c _ _ 0 (Nat.pow_pos (by decide))⟩ (Cfg.isBlock_lt hc hb)
      (by intro a ha; simp only [List.mem_singleton] at ha; exact ⟨_, Nat.le_refl _, ha⟩)
    have hr : (List.range c.numBlocks).map c.blockAddr =
        (List.range (c.numBlocks - 1)).map c.blockAddr ++ [c.blockAddr (c.numBlocks - 1)] := by
      rw [show c.numBlocks = (c.numBlocks - 1) + 1 by omega, List.range_succ]
      simp
    rw [hr]
    simp only [Pool.init]
    by_cases h1 : c.numBlocks - 1 = 0
    · rw [if_pos h1] at this
      rw [h1] at this ⊢
      simpa [Cfg.blockAddr] using this
    · rwa [if_neg h1] at this
  · rw [List.append_nil]
    refine List.Pairwise.map _ ?_ (List.nodup_range (n := c.numBlocks))
    intro i j he hij
    have := Cfg.blockAddr_disjoint (c := c) he
    have hs := hc.sizes.2.2
    rw [hij] at this
    simp only [DisjointRanges] at this
    omega
  · intro a
    rw [List.append_nil, List.mem_map, Cfg.isBlock_iff hc]
    constructor
    · rintro ⟨i, hi, rfl⟩; exact ⟨i, List.mem_range.1 hi, rfl⟩
    · rintro ⟨i, hi, rfl⟩; exact ⟨i, List.mem_range.2 hi, rfl⟩

theorem attempt_nil {c : Cfg} {s : State} {live : List Nat} (h : Inv c s [] live) : attempt c s = .ok none := by
  have : s.head = 0 := h.chain
  simp [attempt, this]

theorem attempt_cons {c : Cfg} (hc : c.WF) {s : State} {a : Nat} {free live : List Nat}
    (h : Inv c s (a :: free) live) : attempt c s = .ok (some (a, loadPtr c s.mem a)) := by
  have h1 : s.head = a := h.chain.1
  have hb : c.isBlock a = true := (h.all a).1 (by simp)
  have hp := Cfg.isBlock_pos hc hb
  have h0 : a ≠ 0 := by omega
  simp [attempt, h1, h0, hb]

theorem allocLoop_nil {c : Cfg} {s : State} {live : List Nat} (h : Inv c s [] live) (k : Nat) :
    allocLoop c s k = .ok (failure c, s) := by
  cases k <;> simp [allocLoop, attempt_nil h]

theorem allocLoop_cons {c : Cfg} (hc : c.WF) {s : State} {a : Nat} {free live : List Nat}
    (h : Inv c s (a :: free) live) (k : Nat) :
    allocLoop c s k = .ok (.ptr a, { s with head := loadPtr c s.mem a }) := by
  induction k with
  | zero => simp [allocLoop, attempt_cons hc h]
  | succ k ih => simp [allocLoop, attempt_cons hc h, ih]

/-- Allocation refines popping the abstract stack. -/
theorem Inv.allocate {c : Cfg} (hc : c.WF) {s : State} {free live : List Nat} (h : Inv c s free live)
    (size k : Nat) :
    match stackAlloc c.blockSize free size with
    | none => Pool.allocate c s size k = .ok (failure c, s)
    | some (a, rest) => ∃ s', Pool.allocate c s size k = .ok (.ptr a, s') ∧ s'.mem = s.mem ∧
        Inv c s' rest (a :: live) := by
  unfold stackAlloc Pool.allocate
  by_cases hs : size ≤ c.blockSize
  · simp only [hs, if_true]
    cases free with
    | nil => exact allocLoop_nil h k
    | cons a rest =>
      refine ⟨_, allocLoop_cons hc h k, rfl, h.chain.2, ?_, ?_⟩
      · exact (List.perm_middle.symm.nodup_iff).1 h.nodup
      · intro x
        rw [← h.all x, List.mem_append, List.mem_cons, List.mem_append, List.mem_cons]
        constructor
        · rintro (h | h | h) <;> simp [h]
        · rintro ((h | h) | h) <;> simp [h]
  · simp only [hs, if_false]

/-- Deallocation of a live block refines pushing on the abstract stack. -/
theorem Inv.deallocate {c : Cfg} (hc : c.WF) {s : State} {free live : List Nat} (h : Inv c s free live)
    {a : Nat} (ha : a ∈ live) :
    Pool.deallocate c s a = .ok (.done, { head := a, mem := storePtr c s.mem a s.head }) ∧
    Inv c { head := a, mem := storePtr c s.mem a s.head } (a :: free) (live.erase a) := by
  have hb : c.isBlock a = true := (h.all a).1 (by simp [ha])
  have hp := Cfg.isBlock_pos hc hb
  have hhead : s.head < 256 ^ c.ptrSize := by
    cases hf : free with
    | nil =>
      have := h.chain
      rw [hf] at this
      have h0 : s.head = 0 := this
      rw [h0]; exact Nat.pow_pos (by decide)
    | cons b rest =>
      have := h.chain
      rw [hf] at this
      have h0 : s.head = b := this.1
      rw [h0]
      exact Cfg.isBlock_lt hc ((h.all b).1 (by simp [hf]))
  have hperm : (a :: free ++ live.erase a).Perm (free ++ live) := by
    have h1 : live.Perm (a :: live.erase a) := List.perm_cons_erase ha
    exact (List.perm_middle.symm).trans ((List.Perm.append_left free h1).symm)
  refine ⟨?_, ?_, ?_, ?_⟩
  · have h0 : a ≠ 0 := by omega
    simp [Pool.deallocate, h0, hb]
  · refine ⟨rfl, ?_⟩
    rw [loadPtr_storePtr_same c _ _ _ hhead]
    refine h.chain.congr ?_
    intro b hbf x hx1 hx2
    have hbb : c.isBlock b = true := (h.all b).1 (by simp [hbf])
    have hne : a ≠ b := by
      intro e
      have := List.nodup_append.1 h.nodup
      exact this.2.2 b hbf a ha e.symm
    have hd := Cfg.isBlock_disjoint hc hb hbb hne
    have hps := hc.sizes.2.1
    simp only [DisjointRanges] at hd
    show s.mem x = storePtr c s.mem a s.head x
    rw [storePtr_other]
    omega
  · exact (hperm.nodup_iff).2 h.nodup
  · intro x
    rw [← h.all x]
    exact hperm.mem_iff

/-- A client write inside a live block does not disturb the free list. -/
theorem Inv.write {c : Cfg} (hc : c.WF) {s : State} {free live : List Nat} (h : Inv c s free live)
    {b x : Nat} (hb : b ∈ live) (h1 : b ≤ x) (h2 : x < b + c.sizeofBlock) (v : Byte) :
    Inv c { s with mem := fun y => if y = x then v else s.mem y } free live := by
  refine ⟨?_, h.nodup, h.all⟩
  refine h.chain.congr ?_
  intro a ha y hy1 hy2
  have hbb : c.isBlock b = true := (h.all b).1 (by simp [hb])
  have hba : c.isBlock a = true := (h.all a).1 (by simp [ha])
  have hne : a ≠ b := by
    intro e
    have := List.nodup_append.1 h.nodup
    exact this.2.2 a ha b hb e
  have hd := Cfg.isBlock_disjoint hc hba hbb hne
  have hps := hc.sizes
  simp only [DisjointRanges] at hd
  simp only
  rw [if_neg (by omega)]

end Uavcan.Pool
