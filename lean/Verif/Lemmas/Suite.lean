import Verif.Model.MathTest
import Verif.Lemmas.BigEndian
import Verif.Props.Pool
import Verif.Props.Time
import Verif.Spec.Bits

/-! # Lemmas about the tests -/

namespace Uavcan.Suite
open Spec

@[simp] theorem lift_ok_bind {α β : Type} (a : α) (f : α → Check β) : (OptionT.lift (Outcome.ok a) >>= f : Check β) = f a := rfl
@[simp] theorem lift_ub_bind {α β : Type} (r : UB) (f : α → Check β) :
    (OptionT.lift (Outcome.ub r) >>= f : Check β).run = Outcome.ub r := rfl
@[simp] theorem ASSERT_true_bind {β : Type} (f : Unit → Check β) : (ASSERT true >>= f) = f () := rfl
@[simp] theorem ASSERT_true : ASSERT true = pure () := rfl
@[simp] theorem pure_bind' {α β : Type} (a : α) (f : α → Check β) : (pure a >>= f : Check β) = f a := rfl

theorem passes_pure {α : Type} (a : α) : Passes (pure a : Check α) := ⟨a, rfl⟩

theorem passes_ok {α : Type} {t : Check α} {a : α} (h : t = pure a) : Passes t := h ▸ passes_pure a

theorem passes_iff {α : Type} (t : Check α) : Passes t ↔ passed t = true := by
  unfold Passes passed
  constructor
  · rintro ⟨a, h⟩; rw [h]
  · intro h
    split at h
    · next a ha => exact ⟨a, ha⟩
    · cases h

/-! ## Sequences of bytes -/

theorem list_ext_getD {l l' : List (BitVec 8)} (h : l.length = l'.length) (hb : ∀ j, j < l.length → l.getD j 0 = l'.getD j 0) : l = l' := by
  refine List.ext_getElem h fun j h1 h2 => ?_
  have := hb j h1
  simpa [List.getD_eq_getElem?_getD, List.getElem?_eq_getElem, h1, h2] using this

theorem num_inj {l l' : List (BitVec 8)} (h : l.length = l'.length) (hn : num l = num l') : l = l' := by
  refine list_ext_getD h fun j hj => BitVec.eq_of_getLsbD_eq fun b hb => ?_
  have h1 := num_testBit l (i := 8 * (l.length - 1 - j) + b) (by omega)
  have h2 := num_testBit l' (i := 8 * (l'.length - 1 - j) + b) (by omega)
  rw [show l.length - 1 - (8 * (l.length - 1 - j) + b) / 8 = j by omega, show (8 * (l.length - 1 - j) + b) % 8 = b by omega] at h1
  rw [show l'.length - 1 - (8 * (l'.length - 1 - j) + b) / 8 = j by omega, show (8 * (l'.length - 1 - j) + b) % 8 = b by omega] at h2
  rw [← h1, ← h2, hn, h]

/-- An array is determined by its bytes outside a part and the number in the part. -/
theorem eq_of_part {l l' : List (BitVec 8)} {q m : Nat} (h : l.length = l'.length) (hm : m ≤ l.length)
    (ho : ∀ j, j < q ∨ m ≤ j → l.getD j 0 = l'.getD j 0) (hn : num (part q m l) = num (part q m l')) : l = l' := by
  have hp := num_inj (by rw [part_length hm, part_length (h ▸ hm)]) hn
  refine list_ext_getD h fun j hj => ?_
  by_cases hjq : q ≤ j ∧ j < m
  · have h1 := part_getD (l := l) (q := q) (m := m) (k := j - q) (by omega)
    have h2 := part_getD (l := l') (q := q) (m := m) (k := j - q) (by omega)
    rw [show q + (j - q) = j by omega] at h1 h2
    rw [← h1, ← h2, hp]
  · exact ho j (by omega)

theorem isBitCopy_unique {src dst d1 d2 : List (BitVec 8)} {s d len : Nat} (h1 : IsBitCopy src s dst d len d1)
    (h2 : IsBitCopy src s dst d len d2) : d1 = d2 := by
  refine list_ext_getD (h1.1.trans h2.1.symm) fun j hj => BitVec.eq_of_getLsbD_eq fun b hb => ?_
  have hl := h1.1
  have e := (h1.2 (8 * j + b) (by omega)).trans (h2.2 (8 * j + b) (by omega)).symm
  simpa only [bit, show (8 * j + b) / 8 = j by omega, show (8 * j + b) % 8 = b by omega] using e

/-! ## Pools -/

namespace Allocator
variable {σ : Type} {a : Allocator σ}

/-- The allocator keeps count: `R s live` says that the pool is in state `s` and has handed out `live` (a list, so that a pointer may
be in it twice). -/
structure Counts (a : Allocator σ) (R : σ → List Nat → Prop) : Prop where
  some_blocks : 0 < a.numBlocks
  some_size : 0 < a.blockSize
  grants : ∀ s live size, R s live → size ≤ a.blockSize → live.length < a.numBlocks →
    ∃ p s', a.allocate s size = .ok (.ptr p, s') ∧ p ≠ 0 ∧ R s' (p :: live)
  refuses : ∀ s live size, R s live → a.blockSize < size ∨ live.length = a.numBlocks →
    ∃ s', a.allocate s size = .ok (if a.exceptions then .badAlloc else .null, s') ∧ R s' live
  takes_back : ∀ s live p size, R s live → p ∈ live → ∃ s', a.deallocate s p size = .ok s' ∧ R s' (live.erase p)
  takes_null : ∀ s live size, R s live → ∃ s', a.deallocate s 0 size = .ok s' ∧ R s' live

variable {R : σ → List Nat → Prop}

theorem Counts.allocOne (h : Counts a R) {s : σ} {live : List Nat} {size : Nat} (hr : R s live) (hs : size ≤ a.blockSize)
    (hl : live.length < a.numBlocks) : ∃ p s', a.allocOne s size = .ok (some p, s') ∧ R s' (p :: live) := by
  obtain ⟨p, s', h1, h2, h3⟩ := h.grants s live size hr hs hl
  exact ⟨p, s', by simp [Allocator.allocOne, h1, h2], h3⟩

theorem Counts.allocFails (h : Counts a R) {s : σ} {live : List Nat} {size : Nat} (hr : R s live)
    (hl : a.blockSize < size ∨ live.length = a.numBlocks) : ∃ s', a.allocFails s size = .ok (true, s') ∧ R s' live := by
  obtain ⟨s', h1, h2⟩ := h.refuses s live size hr hl
  refine ⟨s', ?_, h2⟩
  cases he : a.exceptions <;> simp [Allocator.allocFails, h1, he]

theorem Counts.allocAll (h : Counts a R) : ∀ (n : Nat) {s : σ} {live : List Nat}, R s live → live.length + n ≤ a.numBlocks →
    ∃ ps s', a.allocAll n s = .ok (some ps, s') ∧ ps.length = n ∧ R s' (ps.reverse ++ live)
  | 0, s, live, hr, _ => ⟨[], s, rfl, rfl, hr⟩
  | n + 1, s, live, hr, hl => by
    obtain ⟨p, s1, h1, h2⟩ := h.allocOne hr (Nat.le_refl _) (by omega)
    obtain ⟨ps, s2, h3, h4, h5⟩ := h.allocAll n h2 (by simp only [List.length_cons]; omega)
    exact ⟨p :: ps, s2, by simp [Allocator.allocAll, h1, h3], by simp [h4], by simpa using h5⟩

theorem Counts.deallocAll (h : Counts a R) : ∀ (ps : List Nat) {s : σ} {live : List Nat}, R s live → live.Perm ps →
    ∃ s', a.deallocAll ps s = .ok s' ∧ R s' []
  | [], s, live, hr, hp => ⟨s, rfl, by rwa [hp.eq_nil] at hr⟩
  | p :: ps, s, live, hr, hp => by
    obtain ⟨s1, h1, h2⟩ := h.takes_back s live p a.blockSize hr (hp.mem_iff.2 (by simp))
    obtain ⟨s2, h3, h4⟩ := h.deallocAll ps h2 (by simpa using hp.erase p)
    exact ⟨s2, by simp [Allocator.deallocAll, h1, h3], h4⟩

theorem Counts.fillAndEmpty (h : Counts a R) {s : σ} (hr : R s []) : ∃ s', a.fillAndEmpty s = .ok (true, s') ∧ R s' [] := by
  obtain ⟨ps, s1, h1, h2, h3⟩ := h.allocAll a.numBlocks hr (by simp)
  rw [List.append_nil] at h3
  obtain ⟨s2, h4, h5⟩ := h.allocFails (size := a.blockSize) h3 (.inr (by simp [h2]))
  obtain ⟨s3, h6, h7⟩ := h.deallocAll ps h5 (List.reverse_perm ps)
  exact ⟨s3, by simp [Allocator.fillAndEmpty, h1, h4, h6], h7⟩

theorem Counts.churn (h : Counts a R) : ∀ (n : Nat) {s : σ}, R s [] → ∃ s', a.churn n s = .ok (true, s') ∧ R s' []
  | 0, s, hr => ⟨s, rfl, hr⟩
  | n + 1, s, hr => by
    obtain ⟨p, s1, h1, h2⟩ := h.allocOne hr (Nat.le_refl _) h.some_blocks
    obtain ⟨s2, h3, h4⟩ := h.takes_back s1 [p] p a.blockSize h2 (by simp)
    obtain ⟨s3, h5, h6⟩ := h.churn n (s := s2) (by simpa using h4)
    exact ⟨s3, by simp [Allocator.churn, h1, h3, h5], h6⟩

theorem Counts.test (h : Counts a R) {s : σ} (hr : R s []) (t : PoolTest) : ∃ s', a.test s t = .ok (true, s') ∧ R s' [] := by
  cases t with
  | AllocTooLargeBlock => exact h.allocFails hr (.inl (Nat.lt_succ_self _))
  | DeallocateNull =>
    obtain ⟨s', h1, h2⟩ := h.takes_null s [] a.blockSize hr
    exact ⟨s', by simp [Allocator.test, h1], h2⟩
  | AllocDealloc =>
    obtain ⟨p, s1, h1, h2⟩ := h.allocOne hr h.some_size h.some_blocks
    obtain ⟨s2, h3, h4⟩ := h.takes_back s1 [p] p 1 h2 (by simp)
    exact ⟨s2, by simp [Allocator.test, h1, h3], by simpa using h4⟩
  | AllocTillOutOfMemoryThenDealloc =>
    obtain ⟨s1, h1, h2⟩ := h.fillAndEmpty hr
    obtain ⟨s2, h3, h4⟩ := h.fillAndEmpty h2
    exact ⟨s2, by simp [Allocator.test, h1, h3], h4⟩
  | AllocThenDeallocContinuously =>
    obtain ⟨s1, h1, h2⟩ := h.churn (a.numBlocks * 2) hr
    obtain ⟨p, s2, h3, h4⟩ := h.allocOne h2 (Nat.le_refl _) h.some_blocks
    obtain ⟨s3, h5, h6⟩ := h.takes_back s2 [p] p a.blockSize h4 (by simp)
    exact ⟨s3, by simp [Allocator.test, h1, h3, h5], by simpa using h6⟩

theorem Counts.run (h : Counts a R) : ∀ (ts : List PoolTest) {s : σ}, R s [] →
    ∃ s', a.run s ts = .ok (ts.map fun _ => true, s') ∧ R s' []
  | [], s, hr => ⟨s, rfl, hr⟩
  | t :: ts, s, hr => by
    obtain ⟨s1, h1, h2⟩ := h.test hr t
    obtain ⟨s2, h3, h4⟩ := h.run ts h2
    exact ⟨s2, by simp [Allocator.run, h1, h3], h4⟩

end Allocator

/-- The library's allocator keeps count. -/
theorem library_counts {c : Pool.Cfg} (hc : c.WF) (spurious : Nat → Nat) :
    (libraryAllocator c spurious).Counts fun s live => ∃ free, Pool.Inv c s.1 free live where
  some_blocks := hc.numBlocks_pos
  some_size := hc.blockSize_pos
  grants := by
    rintro s live size ⟨free, h⟩ hs hl
    have hcard := h.card hc
    have ha := h.allocate hc size (spurious s.2)
    cases free with
    | nil => simp only [List.length_nil] at hcard; exact absurd hl (by show ¬ live.length < c.numBlocks; omega)
    | cons p rest =>
      have hs' : size ≤ c.blockSize := hs
      simp only [stackAlloc, hs', if_true] at ha
      obtain ⟨s', h1, -, h2⟩ := ha
      refine ⟨p, (s', s.2 + 1), by simp [libraryAllocator, h1], ?_, rest, h2⟩
      have := Pool.Cfg.isBlock_pos hc ((h.all p).1 (by simp))
      omega
  refuses := by
    rintro s live size ⟨free, h⟩ hl
    have hcard := h.card hc
    have ha := h.allocate hc size (spurious s.2)
    have hn : stackAlloc c.blockSize free size = none := by
      unfold stackAlloc
      rcases hl with hl | hl
      · have hl' : c.blockSize < size := hl
        rw [if_neg (by omega)]
      · have hl' : live.length = c.numBlocks := hl
        have : free = [] := List.length_eq_zero_iff.1 (by omega)
        subst this
        split <;> rfl
    rw [hn] at ha
    simp only at ha
    exact ⟨(s.1, s.2 + 1), by cases he : c.exceptions <;> simp [libraryAllocator, ha, Pool.failure, he], free, h⟩
  takes_back := by
    rintro s live p size ⟨free, h⟩ hp
    obtain ⟨h1, h2⟩ := h.deallocate hc hp
    exact ⟨_, by simp [libraryAllocator, h1]; rfl, _, h2⟩
  takes_null := by
    rintro s live size ⟨free, h⟩
    exact ⟨(s.1, s.2 + 1), by simp [libraryAllocator, Pool.deallocate], free, h⟩

/-! ## Durations and times -/

open Time SatMath

variable {abs : Nat → Int → Outcome Int} {w : Nat}

theorem dur_add (habs : abs = strictAbs ∨ abs = wrapAbs) (hw : 2 ≤ w) {x y : Int} (hx : IsInt w x) (hy : IsInt w y) (h : x ≠ 0 ∨ 0 ≤ y) :
    (Duration.fromMicrosecond x).add abs w (Duration.fromMicrosecond y) = .ok (Duration.fromMicrosecond (signedClamp w (x + y))) := by
  have : addS abs w x y = .ok (signedClamp w (x + y)) := by
    rcases habs with rfl | rfl
    · exact (C01_signed_add_partial w hw x y hx hy).2 (.inr h)
    · exact (C01_signed_add_wrapping_partial w hw x y hx hy).2 (by rcases h with h | h <;> simp [h])
  simp [Duration.add, Duration.fromMicrosecond, this]

theorem dur_sub (habs : abs = strictAbs ∨ abs = wrapAbs) (hw : 2 ≤ w) {x y : Int} (hx : IsInt w x) (hy : IsInt w y) (h : x ≠ 0 ∨ y < 0) :
    (Duration.fromMicrosecond x).sub abs w (Duration.fromMicrosecond y) = .ok (Duration.fromMicrosecond (signedClamp w (x - y))) := by
  have : subS abs w x y = .ok (signedClamp w (x - y)) := by
    rcases habs with rfl | rfl
    · exact (C02_signed_sub_partial w hw x y hx hy).2 (.inr h)
    · exact (C02_signed_sub_wrapping_partial w hw x y hx hy).2 (.inr h)
  simp [Duration.sub, Duration.fromMicrosecond, this]

theorem dur_neg (hw : 2 ≤ w) {x : Int} (hx : IsInt w x) :
    (Duration.fromMicrosecond x).neg w = .ok (Duration.fromMicrosecond (if x = -(2 ^ (w - 1)) then 2 ^ (w - 1) - 1 else -x)) :=
  (C08_negation w hw x hx).1

theorem dur_abs (habs : abs = strictAbs ∨ abs = wrapAbs) (hw : 2 ≤ w) {x : Int} (hx : IsInt w x) (h : x ≠ -(2 ^ (w - 1))) :
    (Duration.fromMicrosecond x).getAbs abs w = .ok (Duration.fromMicrosecond (signedClamp w (if x < 0 then -x else x))) :=
  (C09_getAbs_partial w hw x hx abs habs).2 h

theorem time_add (hw : 2 ≤ w) {x y : Int} (hx : IsUInt w x) (hy : IsInt w y) (h : 0 ≤ y) :
    (TimePoint.fromMicrosecond x).add w (Duration.fromMicrosecond y) = .ok (TimePoint.fromMicrosecond (unsignedClamp w (x + y))) := by
  have := (C04_mixed_add_partial w hw x y hx hy).2 (.inl h)
  simp [TimePoint.add, TimePoint.fromMicrosecond, Duration.fromMicrosecond, Duration.toMicrosecond, this]

theorem time_sub (hw : 2 ≤ w) {x y : Int} (hx : IsUInt w x) (hy : IsInt w y) (h : 0 ≤ y) :
    (TimePoint.fromMicrosecond x).sub w (Duration.fromMicrosecond y) = .ok (TimePoint.fromMicrosecond (unsignedClamp w (x - y))) := by
  have := (C05_mixed_sub_partial w hw x y hx hy).2 (.inl h)
  simp [TimePoint.sub, TimePoint.fromMicrosecond, Duration.fromMicrosecond, Duration.toMicrosecond, this]

end Uavcan.Suite
