import Verif.Lemmas.Suite
import Verif.Props.Can
import Verif.Props.CopyBitsShift

/-!
# C83–C85: what the validation suite says about an implementation

The suite (`libuavcan_validation_suite`) is there for users to check the library on their platform. C83: the library passes. C84: what
passes is right. C85: what is right passes.
-/

namespace Uavcan.Suite
open Spec Time SatMath

/-! ## C83 -/

/-- The pool tests, run in any order and any number of times, all pass, starting from a new pool. -/
def PoolPasses {σ : Type} (a : Allocator σ) (s : σ) : Prop :=
  ∀ ts : List PoolTest, ∃ s', a.run s ts = .ok (ts.map fun _ => true, s')

/-- The property as stated in `properties.jsonl`: the library passes the suite, whatever its parameters. -/
def C83_Statement : Prop :=
  (∀ t ∈ copyTests, Passes (t libraryCopies)) ∧
  (∀ (c : Pool.Cfg) (spurious : Nat → Nat) (mem : Pool.Mem), c.WF → PoolPasses (libraryAllocator c spurious) (Pool.init c mem, 0)) ∧
  (∀ w, 8 ≤ w → ∀ t ∈ durationTests strictAbs w ++ timeTests strictAbs w, Passes t) ∧
  (∀ mtu, mtu ≤ 64 → ∀ t ∈ frameTests, Passes (t mtu))

/-- C83, partial: the bit copies pass. -/
theorem C83_copies_partial : ∀ t ∈ copyTests, Passes (t libraryCopies) := by
  have : ∀ t ∈ copyTests.map (fun t => passed (t libraryCopies)), t = true := by decide +kernel
  intro t ht
  exact (passes_iff _).2 (this _ (List.mem_map_of_mem ht))

/-- C83, partial: the pool tests pass for every pool, with and without exceptions, in any order, any number of times, and not only on
a new pool but after any history that has given back all its blocks; afterwards all blocks are back again. -/
theorem C83_pool_partial {c : Pool.Cfg} (hc : c.WF) (spurious : Nat → Nat) {s : Pool.State} (h : Pool.History c s []) (n : Nat)
    (ts : List PoolTest) :
    ∃ s' m, (libraryAllocator c spurious).run (s, n) ts = .ok (ts.map fun _ => true, (s', m)) ∧ ∃ free, Pool.Inv c s' free [] := by
  obtain ⟨s', h1, h2⟩ := (library_counts hc spurious).run ts (s := (s, n)) (h.inv hc)
  exact ⟨s'.1, s'.2, h1, h2⟩

theorem two_pow_ge {w : Nat} (hw : 8 ≤ w) : (128 : Int) ≤ 2 ^ (w - 1) := by
  have : 2 ^ 7 ≤ 2 ^ (w - 1) := Nat.pow_le_pow_right (by decide) (by omega)
  exact_mod_cast this

theorem two_pow_double {w : Nat} (hw : 8 ≤ w) : (2 : Int) ^ w = 2 * 2 ^ (w - 1) := by
  conv => lhs; rw [show w = (w - 1) + 1 by omega, Int.pow_succ]
  omega

/-- C83, partial: the tests for durations and times pass for every width of the microsecond type (of at least 8 bits), under both
readings of `std::abs`. -/
theorem C83_time_partial {abs : Nat → Int → Outcome Int} (habs : abs = strictAbs ∨ abs = wrapAbs) (w : Nat) (hw : 8 ≤ w) :
    ∀ t ∈ durationTests abs w ++ timeTests abs w, Passes t := by
  have hp := two_pow_ge hw
  have hd := two_pow_double hw
  have hw2 : 2 ≤ w := by omega
  have hi : ∀ x : Int, -128 ≤ x → x ≤ 127 → IsInt w x := fun x h1 h2 => by unfold IsInt; omega
  have hmax : IsInt w (intMax w) := by unfold IsInt intMax; omega
  have hmin : IsInt w (intMin w) := by unfold IsInt intMin; omega
  have hm1 : IsInt w (intMin w + 1) := by unfold IsInt intMin; omega
  have hm2 : IsInt w (intMin w + 2) := by unfold IsInt intMin; omega
  have hx1 : IsInt w (intMax w - 1) := by unfold IsInt intMax; omega
  have hu : ∀ x : Int, 0 ≤ x → x ≤ 255 → IsUInt w x := fun x h1 h2 => by unfold IsUInt; omega
  have humax : IsUInt w (uintMax w) := by unfold IsUInt uintMax; omega
  have hne : intMax w ≠ 0 := by unfold intMax; omega
  have hge : 0 ≤ intMax w := by unfold intMax; omega
  have hle : intMax w ≤ uintMax w := by unfold intMax uintMax; omega
  -- the values the operations return
  have a1 := dur_add habs hw2 hmax (hi 1 (by decide) (by decide)) (.inl hne)
  have a2 := dur_add habs hw2 (hi 1 (by decide) (by decide)) (hi 1 (by decide) (by decide)) (.inl (by decide))
  have a3 := dur_add habs hw2 (hi 2 (by decide) (by decide)) hmax (.inl (by decide))
  have s1 := dur_sub habs hw2 hmin (hi 1 (by decide) (by decide)) (.inl (by unfold intMin; omega))
  have s2 := dur_sub habs hw2 hmax (hi 10 (by decide) (by decide)) (.inl hne)
  have s3 := dur_sub habs hw2 hmax (hi 1 (by decide) (by decide)) (.inl hne)
  have n1 := dur_neg hw2 (hi 1 (by decide) (by decide))
  have n2 := dur_neg hw2 hmax
  have n3 := dur_neg hw2 hx1
  have n4 := dur_neg hw2 hmin
  have n5 := dur_neg hw2 hm1
  have n6 := dur_neg hw2 hm2
  have b1 := dur_abs habs hw2 (hi (-1) (by decide) (by decide)) (by omega)
  have b2 := dur_abs habs hw2 (hi 1 (by decide) (by decide)) (by omega)
  have t1 := time_add hw2 humax (hi 1 (by decide) (by decide)) (by decide)
  have t2 := time_add hw2 (hu 1 (by decide) (by decide)) (hi 1 (by decide) (by decide)) (by decide)
  have t3 := time_add hw2 (hu 0 (by decide) (by decide)) hmax hge
  have t4 := time_add hw2 humax hmax hge
  have u1 := time_sub hw2 (hu 0 (by decide) (by decide)) (hi 1 (by decide) (by decide)) (by decide)
  have u2 := time_sub hw2 (hu 1 (by decide) (by decide)) (hi 1 (by decide) (by decide)) (by decide)
  rw [show signedClamp w (intMax w + 1) = intMax w by unfold signedClamp clamp intMax; omega] at a1
  rw [show signedClamp w (1 + 1) = 2 by unfold signedClamp clamp; omega] at a2
  rw [show signedClamp w (2 + intMax w) = intMax w by unfold signedClamp clamp intMax; omega] at a3
  rw [show signedClamp w (intMin w - 1) = intMin w by unfold signedClamp clamp intMin; omega] at s1
  rw [show signedClamp w (intMax w - 1) = intMax w - 1 by unfold signedClamp clamp intMax; omega] at s3
  rw [if_neg (by omega)] at n1
  rw [if_neg (by unfold intMax; omega), show -intMax w = intMin w + 1 by unfold intMin intMax; omega] at n2
  rw [if_neg (by unfold intMax; omega), show -(intMax w - 1) = intMin w + 2 by unfold intMin intMax; omega] at n3
  rw [if_pos (by unfold intMin; omega), show (2 : Int) ^ (w - 1) - 1 = intMax w from rfl] at n4
  rw [if_neg (by unfold intMin; omega), show -(intMin w + 1) = intMax w by unfold intMin intMax; omega] at n5
  rw [if_neg (by unfold intMin; omega), show -(intMin w + 2) = intMax w - 1 by unfold intMin intMax; omega] at n6
  rw [if_pos (by decide), show signedClamp w (- -1) = 1 by unfold signedClamp clamp; omega] at b1
  rw [if_neg (by decide), show signedClamp w 1 = 1 by unfold signedClamp clamp; omega] at b2
  rw [show unsignedClamp w (uintMax w + 1) = uintMax w by unfold unsignedClamp clamp uintMax; omega] at t1
  rw [show unsignedClamp w (1 + 1) = 2 by unfold unsignedClamp clamp; omega] at t2
  rw [show unsignedClamp w (0 + intMax w) = intMax w by unfold unsignedClamp clamp intMax; omega] at t3
  rw [show unsignedClamp w (uintMax w + intMax w) = uintMax w by unfold unsignedClamp clamp uintMax intMax; omega] at t4
  rw [show unsignedClamp w (0 - 1) = 0 by unfold unsignedClamp clamp; omega] at u1
  rw [show unsignedClamp w (1 - 1) = 0 by unfold unsignedClamp clamp; omega] at u2
  have c1 : castS w (intMax w) = intMax w := castS_of_inS (by omega) ⟨hmax.1, hmax.2⟩
  have hdm : Duration.getMaximum w = Duration.fromMicrosecond (intMax w) := rfl
  have htm : TimePoint.getMaximum w = TimePoint.fromMicrosecond (uintMax w) := rfl
  have hde : ∀ d : Duration, d.eq d = true := fun d => by simp [Duration.eq]
  have hte : ∀ d : TimePoint, d.eq d = true := fun d => by simp [TimePoint.eq]
  have hdt : ∀ x, (Duration.fromMicrosecond x).toMicrosecond = x := fun _ => rfl
  have htt : ∀ x, (TimePoint.fromMicrosecond x).toMicrosecond = x := fun _ => rfl
  intro t ht
  simp only [durationTests, timeTests, List.cons_append, List.nil_append, List.mem_cons, List.not_mem_nil, or_false] at ht
  rcases ht with rfl | rfl | rfl | rfl | rfl | rfl | rfl | rfl | rfl | rfl | rfl | rfl | rfl | rfl | rfl
  · exact ⟨(), rfl⟩
  · exact ⟨(), rfl⟩
  · exact ⟨(), rfl⟩
  · refine passes_ok (a := ()) ?_
    simp only [DurationTest.saturatedAdd, a1, hdt, lift_ok_bind, beq_self_eq_true, ASSERT_true]
  · refine passes_ok (a := ()) ?_
    simp only [DurationTest.getMaximum, hdm, hde, ASSERT_true]
  · refine passes_ok (a := ()) ?_
    simp only [DurationTest.saturatedSubtract, s1, hdt, lift_ok_bind, beq_self_eq_true, ASSERT_true]
  · refine passes_ok (a := ()) ?_
    simp only [DurationTest.absoluteValue, b1, b2, hdt, lift_ok_bind, beq_self_eq_true, ASSERT_true, pure_bind']
  · refine passes_ok (a := ()) ?_
    simp only [DurationTest.arithmeticOperators, hdm, a2, a3, s2, s3, n1, n2, n3, n4, n5, n6, lift_ok_bind, hde, ASSERT_true,
      pure_bind']
  · exact ⟨(), rfl⟩
  · exact ⟨(), rfl⟩
  · exact ⟨(), rfl⟩
  · refine passes_ok (a := ()) ?_
    simp only [TimeTest.saturatedAdd, t1, htt, lift_ok_bind, beq_self_eq_true, ASSERT_true]
  · refine passes_ok (a := ()) ?_
    simp only [TimeTest.getMaximum, htm, hte, ASSERT_true]
  · refine passes_ok (a := ()) ?_
    simp only [TimeTest.saturatedSubtract, u1, htt, lift_ok_bind, beq_self_eq_true, ASSERT_true]
  · refine passes_ok (a := ()) ?_
    simp only [TimeTest.arithmeticOperators, hdm, htm, t2, t3, t4, u2, lift_ok_bind, hde, hte, htt, c1, ASSERT_true, pure_bind']

/-- The suite passes for a frame type. -/
def framePasses (mtu : Nat) : Bool := frameTests.all fun t => passed (t mtu)

/-- C83, partial: the tests for frames pass exactly for those MTUs that are CAN FD lengths and at least 8 (all MTUs the class admits are
covered). Missing: MTUs below 8, with which the tests write beyond the frame, and MTUs between CAN FD lengths, where `SetDataLength` fails. -/
theorem C83_frames_partial (mtu : Nat) (h : mtu ≤ 64) : (∀ t ∈ frameTests, Passes (t mtu)) ↔ 8 ≤ mtu ∧ FdLength mtu := by
  have key : ∀ m, m < 65 → (framePasses m = true ↔ 8 ≤ m ∧ FdLength m) := by decide +kernel
  rw [← key mtu (by omega), framePasses, List.all_eq_true]
  exact ⟨fun h t ht => (passes_iff _).1 (h t ht), fun h t ht => (passes_iff _).2 (h t ht)⟩

/-- C83 is false: with an MTU of 7 the suite is undefined, with an MTU of 9 a test fails. -/
theorem C83_full_statement_fails : ¬ C83_Statement ∧ (FrameEqual 7).run = .ub .outOfBounds ∧ (SetDataLength 9).run = .ok none := by
  refine ⟨fun h => ?_, by decide +kernel, by decide +kernel⟩
  exact absurd ((C83_frames_partial 9 (by decide)).1 (h.2.2.2 9 (by decide))) (by decide)

/-- The library's own frame types. -/
example : (∀ t ∈ frameTests, Passes (t 8)) ∧ (∀ t ∈ frameTests, Passes (t 64)) :=
  ⟨(C83_frames_partial 8 (by decide)).2 (by decide), (C83_frames_partial 64 (by decide)).2 (by decide)⟩

/-! ## C84 -/

/-- An allocator for one thread that is right: it keeps count, and never hands out what it has handed out already. -/
structure RightPool {σ : Type} (a : Allocator σ) (R : σ → List Nat → Prop) : Prop extends a.Counts R where
  fresh : ∀ s live size p s', R s live → a.allocate s size = .ok (.ptr p, s') → p ∉ live

/-- A pair of bit copies that is right, in the reading of the suite's diagrams: null pointers and zero lengths copy nothing; part of a
byte is copied bit by bit; whole arrays are shifted, the bytes before the offset being skipped. -/
structure RightCopies (c : Copies) : Prop where
  ua_nothing : ∀ src off dst len, src = none ∨ dst = none ∨ len = 0 → c.ua src off dst len = .ok (0, dst)
  au_nothing : ∀ src dst off len, src = none ∨ dst = none ∨ len = 0 → c.au src dst off len = .ok (0, dst)
  ua_part : ∀ src dst off len, 0 < len → off + len ≤ 8 → 0 < src.length → 0 < dst.length →
    ∃ dst', c.ua (some src) off (some dst) len = .ok (len, some dst') ∧ IsBitCopy src off dst 0 len dst'
  au_part : ∀ src dst off len, 0 < len → off + len ≤ 8 → 0 < src.length → 0 < dst.length →
    ∃ dst', c.au (some src) (some dst) off len = .ok (len, some dst') ∧ IsBitCopy src 0 dst off len dst'
  ua_whole : ∀ src dst off m, off < 8 * m → m ≤ src.length → m ≤ dst.length → dst.length < 2 ^ 61 →
    ∃ dst', c.ua (some src) off (some dst) (8 * m) = .ok (8 * m - off, some dst') ∧
      dst'.length = dst.length ∧ (∀ j, j < off / 8 ∨ m ≤ j → dst'.getD j 0 = dst.getD j 0) ∧
      ShiftedRight (off % 8) (part (off / 8) m src) (part (off / 8) m dst) (part (off / 8) m dst')
  au_whole : ∀ src dst off m, off < 8 * m → m ≤ src.length → m ≤ dst.length → dst.length < 2 ^ 61 →
    ∃ dst', c.au (some src) (some dst) off (8 * m) = .ok (8 * m - off, some dst') ∧
      dst'.length = dst.length ∧ (∀ j, j < off / 8 ∨ m ≤ j → dst'.getD j 0 = dst.getD j 0) ∧
      ShiftedLeft (off % 8) (part (off / 8) m src) (part (off / 8) m dst) (part (off / 8) m dst')

/-- The property as stated in `properties.jsonl`: what passes is right. -/
def C84_Statement : Prop :=
  (∀ c : Copies, (∀ t ∈ copyTests, Passes (t c)) → RightCopies c) ∧
  (∀ (σ : Type) (a : Allocator σ) (s : σ), PoolPasses a s → ∃ R, R s [] ∧ RightPool a R)

/-- Like `allocAll`, in terms of the calls: `n` calls in a row return the pointers `ps`, none of them null. -/
inductive Serves {σ : Type} (a : Allocator σ) (size : Nat) : σ → List Nat → σ → Prop
  | nil (s : σ) : Serves a size s [] s
  | cons {s s1 s2 : σ} {p : Nat} {ps : List Nat} : a.allocate s size = .ok (.ptr p, s1) → p ≠ 0 → Serves a size s1 ps s2 →
      Serves a size s (p :: ps) s2

/-- A failed allocation, as it has to look in each of the two builds. -/
def Refuses {σ : Type} (a : Allocator σ) (size : Nat) (s s' : σ) : Prop :=
  ∃ r, a.allocate s size = .ok (r, s') ∧ if a.exceptions then r = .badAlloc else r = .null ∨ r = .ptr 0

theorem serves_of_allocAll {σ : Type} {a : Allocator σ} : ∀ {n : Nat} {s s' : σ} {ps : List Nat},
    a.allocAll n s = .ok (some ps, s') → ps.length = n ∧ Serves a a.blockSize s ps s'
  | 0, s, s', ps, h => by
    simp only [Allocator.allocAll, Outcome.ok.injEq, Prod.mk.injEq, Option.some.injEq] at h
    obtain ⟨rfl, rfl⟩ := h
    exact ⟨rfl, .nil s⟩
  | n + 1, s, s', ps, h => by
    cases ha : a.allocate s a.blockSize with
    | ub r => simp [Allocator.allocAll, Allocator.allocOne, ha] at h
    | ok x =>
      obtain ⟨r, s1⟩ := x
      cases r with
      | ptr p =>
        by_cases hp : p = 0
        · simp [Allocator.allocAll, Allocator.allocOne, ha, hp] at h
        · cases hr : a.allocAll n s1 with
          | ub r => simp [Allocator.allocAll, Allocator.allocOne, ha, hp, hr] at h
          | ok y =>
            obtain ⟨ps1, s2⟩ := y
            cases ps1 with
            | none => simp [Allocator.allocAll, Allocator.allocOne, ha, hp, hr] at h
            | some ps1 =>
              simp [Allocator.allocAll, Allocator.allocOne, ha, hp, hr] at h
              obtain ⟨rfl, rfl⟩ := h
              obtain ⟨h1, h2⟩ := serves_of_allocAll hr
              exact ⟨by simp [h1], .cons ha hp h2⟩
      | null => simp [Allocator.allocAll, Allocator.allocOne, ha] at h
      | badAlloc => simp [Allocator.allocAll, Allocator.allocOne, ha] at h
      | done => simp [Allocator.allocAll, Allocator.allocOne, ha] at h

theorem refuses_of_allocFails {σ : Type} {a : Allocator σ} {size : Nat} {s s' : σ} (h : a.allocFails s size = .ok (true, s')) :
    Refuses a size s s' := by
  cases ha : a.allocate s size with
  | ub r => simp [Allocator.allocFails, ha] at h
  | ok x =>
    obtain ⟨r, s1⟩ := x
    simp only [Allocator.allocFails, ha, Outcome.ok_bind, Outcome.pure_eq, Outcome.ok.injEq, Prod.mk.injEq] at h
    obtain ⟨h1, rfl⟩ := h
    refine ⟨r, ha, ?_⟩
    cases he : a.exceptions <;> simp [he] at h1 ⊢ <;> exact h1

/-- C84, partial: an allocator that passes refuses more than a block; from a new pool it serves `NumBlocks` requests and refuses the next.
Missing: that the blocks are different, and everything about the bit copies for other arguments than those of the tests. -/
theorem C84_pool_partial {σ : Type} (a : Allocator σ) (s : σ) (h : PoolPasses a s) :
    (∃ s', Refuses a (a.blockSize + 1) s s') ∧
    ∃ ps s1 s2, ps.length = a.numBlocks ∧ Serves a a.blockSize s ps s1 ∧ Refuses a a.blockSize s1 s2 := by
  constructor
  · obtain ⟨s', h1⟩ := h [.AllocTooLargeBlock]
    cases ha : a.allocFails s (a.blockSize + 1) with
    | ub r => simp [Allocator.run, Allocator.test, ha] at h1
    | ok x =>
      obtain ⟨b, s1⟩ := x
      simp [Allocator.run, Allocator.test, ha] at h1
      obtain ⟨rfl, rfl⟩ := h1
      exact ⟨_, refuses_of_allocFails ha⟩
  · obtain ⟨s', h1⟩ := h [.AllocTillOutOfMemoryThenDealloc]
    cases ha : a.allocAll a.numBlocks s with
    | ub r => simp [Allocator.run, Allocator.test, Allocator.fillAndEmpty, ha] at h1
    | ok x =>
      obtain ⟨o, s1⟩ := x
      cases o with
      | none => simp [Allocator.run, Allocator.test, Allocator.fillAndEmpty, ha] at h1
      | some ps =>
        obtain ⟨h2, h3⟩ := serves_of_allocAll ha
        cases hf : a.allocFails s1 a.blockSize with
        | ub r => simp [Allocator.run, Allocator.test, Allocator.fillAndEmpty, ha, hf] at h1
        | ok y =>
          obtain ⟨b, s2⟩ := y
          cases b with
          | false => simp [Allocator.run, Allocator.test, Allocator.fillAndEmpty, ha, hf] at h1
          | true => exact ⟨ps, s1, s2, h2, h3, refuses_of_allocFails hf⟩

/-- `deallocate` accepts all of `ps`, in this order. -/
inductive TakesBack {σ : Type} (a : Allocator σ) (size : Nat) : σ → List Nat → σ → Prop
  | nil (s : σ) : TakesBack a size s [] s
  | cons {s s1 s2 : σ} {p : Nat} {ps : List Nat} : a.deallocate s p size = .ok s1 → TakesBack a size s1 ps s2 →
      TakesBack a size s (p :: ps) s2

/-- A pool that is full and empty again between `s` and `s'`: `NumBlocks` requests are served, the next one is refused, and all blocks are
taken back. -/
def FullAndEmpty {σ : Type} (a : Allocator σ) (s s' : σ) : Prop :=
  ∃ ps s1 s2, ps.length = a.numBlocks ∧ Serves a a.blockSize s ps s1 ∧ Refuses a a.blockSize s1 s2 ∧ TakesBack a a.blockSize s2 ps s'

theorem takesBack_of_deallocAll {σ : Type} {a : Allocator σ} : ∀ {ps : List Nat} {s s' : σ},
    a.deallocAll ps s = .ok s' → TakesBack a a.blockSize s ps s'
  | [], s, s', h => by
    simp only [Allocator.deallocAll, Outcome.ok.injEq] at h
    subst h
    exact .nil s
  | p :: ps, s, s', h => by
    cases hd : a.deallocate s p a.blockSize with
    | ub r => simp [Allocator.deallocAll, hd] at h
    | ok s1 =>
      simp [Allocator.deallocAll, hd] at h
      exact .cons hd (takesBack_of_deallocAll h)

theorem fullAndEmpty_of_fillAndEmpty {σ : Type} {a : Allocator σ} {s s' : σ} (h : a.fillAndEmpty s = .ok (true, s')) :
    FullAndEmpty a s s' := by
  cases ha : a.allocAll a.numBlocks s with
  | ub r => simp [Allocator.fillAndEmpty, ha] at h
  | ok x =>
    obtain ⟨o, s1⟩ := x
    cases o with
    | none => simp [Allocator.fillAndEmpty, ha] at h
    | some ps =>
      obtain ⟨h2, h3⟩ := serves_of_allocAll ha
      cases hf : a.allocFails s1 a.blockSize with
      | ub r => simp [Allocator.fillAndEmpty, ha, hf] at h
      | ok y =>
        obtain ⟨b, s2⟩ := y
        cases b with
        | false => simp [Allocator.fillAndEmpty, ha, hf] at h
        | true =>
          cases hd : a.deallocAll ps s2 with
          | ub r => simp [Allocator.fillAndEmpty, ha, hf, hd] at h
          | ok s3 =>
            simp [Allocator.fillAndEmpty, ha, hf, hd] at h
            subst h
            exact ⟨ps, s1, s2, h2, h3, refuses_of_allocFails hf, takesBack_of_deallocAll hd⟩

theorem run_append {σ : Type} {a : Allocator σ} : ∀ {ts us : List PoolTest} {s s1 s2 : σ} {bs cs : List Bool},
    a.run s ts = .ok (bs, s1) → a.run s (ts ++ us) = .ok (cs, s2) → ∃ ds, cs = bs ++ ds ∧ a.run s1 us = .ok (ds, s2)
  | [], us, s, s1, s2, bs, cs, h1, h2 => by
    simp only [Allocator.run, Outcome.ok.injEq, Prod.mk.injEq] at h1
    obtain ⟨rfl, rfl⟩ := h1
    exact ⟨cs, rfl, h2⟩
  | t :: ts, us, s, s1, s2, bs, cs, h1, h2 => by
    cases ht : a.test s t with
    | ub r => simp [Allocator.run, ht] at h1
    | ok x =>
      obtain ⟨b, s3⟩ := x
      cases hr : a.run s3 ts with
      | ub r => simp [Allocator.run, ht, hr] at h1
      | ok y =>
        obtain ⟨bs', s4⟩ := y
        simp [Allocator.run, ht, hr] at h1
        obtain ⟨rfl, rfl⟩ := h1
        cases hu : a.run s3 (ts ++ us) with
        | ub r => simp [Allocator.run, ht, hu] at h2
        | ok z =>
          obtain ⟨cs', s5⟩ := z
          simp [Allocator.run, ht, hu] at h2
          obtain ⟨rfl, rfl⟩ := h2
          obtain ⟨ds, rfl, h3⟩ := run_append hr hu
          exact ⟨ds, rfl, h3⟩

/-- C84, partial: nothing is lost. Whatever tests have run, an allocator that passes can still be filled with `NumBlocks` blocks, emptied,
filled and emptied again, and refuses more than a block. -/
theorem C84_pool_no_leak_partial {σ : Type} (a : Allocator σ) (s : σ) (h : PoolPasses a s) (ts : List PoolTest) :
    ∃ s', a.run s ts = .ok (ts.map fun _ => true, s') ∧ PoolPasses a s' ∧
      (∃ s1 s2, FullAndEmpty a s' s1 ∧ FullAndEmpty a s1 s2) ∧ (∃ s1, Refuses a (a.blockSize + 1) s' s1) := by
  obtain ⟨s', h1⟩ := h ts
  have h2 : PoolPasses a s' := fun us => by
    obtain ⟨s2, h3⟩ := h (ts ++ us)
    obtain ⟨ds, h4, h5⟩ := run_append h1 h3
    rw [List.map_append] at h4
    exact ⟨s2, List.append_cancel_left h4 ▸ h5⟩
  refine ⟨s', h1, h2, ?_, (C84_pool_partial a s' h2).1⟩
  obtain ⟨s3, h3⟩ := h2 [.AllocTillOutOfMemoryThenDealloc]
  cases hf : a.fillAndEmpty s' with
  | ub r => simp [Allocator.run, Allocator.test, hf] at h3
  | ok x =>
    obtain ⟨b, s4⟩ := x
    cases b with
    | false => simp [Allocator.run, Allocator.test, hf] at h3
    | true =>
      cases hg : a.fillAndEmpty s4 with
      | ub r => simp [Allocator.run, Allocator.test, hf, hg] at h3
      | ok y =>
        obtain ⟨b, s5⟩ := y
        simp [Allocator.run, Allocator.test, hf, hg] at h3
        obtain ⟨rfl, rfl⟩ := h3
        exact ⟨s4, s5, fullAndEmpty_of_fillAndEmpty hf, fullAndEmpty_of_fillAndEmpty hg⟩

/-- An allocator of two blocks of ten bytes which takes nothing back, without exceptions. -/
def leaky : Allocator Nat where
  numBlocks := 2
  blockSize := 10
  exceptions := false
  allocate s k := .ok (if k ≤ 10 ∧ s < 2 then (.ptr (16 * (s + 1)), s + 1) else (.null, s))
  deallocate s _ _ := .ok s

/-- The suite notices that it loses its blocks; the library's allocator, between any tests, does not lose any. -/
example : ¬ PoolPasses leaky 0 ∧
    ∃ s1 s2, FullAndEmpty (libraryAllocator ⟨2, 10, 8, 16, 32, 4096, false⟩ fun _ => 1) (Pool.init ⟨2, 10, 8, 16, 32, 4096, false⟩ (fun _ => 7), 0) s1 ∧
      FullAndEmpty (libraryAllocator ⟨2, 10, 8, 16, 32, 4096, false⟩ fun _ => 1) s1 s2 := by
  constructor
  · intro h
    obtain ⟨s', h1⟩ := h [.AllocTillOutOfMemoryThenDealloc]
    have h2 : leaky.run 0 [.AllocTillOutOfMemoryThenDealloc] = .ok ([false], 2) := by decide +kernel
    rw [h2] at h1
    simp at h1
  · have hp : PoolPasses (libraryAllocator ⟨2, 10, 8, 16, 32, 4096, false⟩ fun _ => 1)
        (Pool.init ⟨2, 10, 8, 16, 32, 4096, false⟩ (fun _ => 7), 0) := fun ts => by
      obtain ⟨s', m, h1, -⟩ := C83_pool_partial (c := ⟨2, 10, 8, 16, 32, 4096, false⟩)
        ⟨by decide, by decide, by decide, by decide, by decide, by decide, by decide, by decide⟩ (fun _ => 1) (Pool.History.start _) 0 ts
      exact ⟨_, h1⟩
    obtain ⟨s', h1, -, h3, -⟩ := C84_pool_no_leak_partial _ _ hp []
    simp only [Allocator.run, Outcome.ok.injEq, Prod.mk.injEq] at h1
    rw [← h1.2] at h3
    exact h3

/-- A wrong allocator: it counts, but always hands out the same block. -/
def sameBlock (n size : Nat) (exceptions : Bool) : Allocator Nat where
  numBlocks := n
  blockSize := size
  exceptions := exceptions
  allocate s k := .ok (if k ≤ size ∧ s < n then (.ptr 16, s + 1) else (if exceptions then .badAlloc else .null, s))
  deallocate s p _ := .ok (if p = 0 then s else s - 1)

theorem sameBlock_counts {n size : Nat} (hn : 0 < n) (hs : 0 < size) (e : Bool) :
    (sameBlock n size e).Counts fun s live => live.length = s ∧ ∀ p ∈ live, p = 16 where
  some_blocks := hn
  some_size := hs
  grants := by
    intro s live k hr hk hl
    have hk' : k ≤ size := hk
    have hl' : live.length < n := hl
    exact ⟨16, s + 1, by simp only [sameBlock]; rw [if_pos ⟨hk', by omega⟩], by decide, by simp [hr.1], by
      intro p hp; rcases List.mem_cons.1 hp with h | h
      · exact h
      · exact hr.2 p h⟩
  refuses := by
    intro s live k hr hl
    have hl' : size < k ∨ live.length = n := hl
    exact ⟨s, by simp only [sameBlock]; rw [if_neg (by omega)]; cases e <;> rfl, hr⟩
  takes_back := by
    intro s live p k hr hp
    have h16 := hr.2 p hp
    refine ⟨s - 1, by simp [sameBlock, h16], ?_, fun q hq => hr.2 q (List.mem_of_mem_erase hq)⟩
    rw [List.length_erase_of_mem hp, hr.1]
  takes_null := by
    intro s live k hr
    exact ⟨s, by simp [sameBlock], hr⟩

/-- C84 is false: the library's own bit copies pass and are wrong, in the reading of the suite and in that of their documentation; an
allocator that always hands out the same block passes; durations pass and `0 - 0` is undefined. -/
theorem C84_full_statement_fails :
    ¬ C84_Statement ∧
    ((∀ t ∈ copyTests, Passes (t libraryCopies)) ∧ ¬ RightCopies libraryCopies ∧ ¬ CopyBits.C30_Statement ∧ ¬ CopyBits.C31_Statement) ∧
    (∀ n size e, 0 < n → 0 < size → PoolPasses (sameBlock n size e) 0) ∧
    ((∀ t ∈ durationTests strictAbs 64, Passes t) ∧ Duration.sub strictAbs 64 ⟨0⟩ ⟨0⟩ = .ub .absOfMin) := by
  have h1 : ¬ RightCopies libraryCopies := fun h => CopyBits.C81_full_statement_fails fun src dst off m => h.au_whole src dst off m
  refine ⟨fun h => h1 (h.1 _ C83_copies_partial),
    ⟨C83_copies_partial, h1, CopyBits.C30_full_statement_fails, CopyBits.C31_full_statement_fails⟩, ?_, ?_, by decide +kernel⟩
  · intro n size e hn hs ts
    obtain ⟨s', h2, -⟩ := (sameBlock_counts hn hs e).run ts (s := 0) ⟨rfl, by simp⟩
    exact ⟨s', h2⟩
  · exact fun t ht => C83_time_partial (.inl rfl) 64 (by decide) t (List.mem_append_left _ ht)

/-- C84 fails for pools as well: the allocator that always hands out the same block is not right. -/
theorem C84_pool_statement_fails (n size : Nat) (e : Bool) (hn : 2 ≤ n) (hs : 0 < size) :
    PoolPasses (sameBlock n size e) 0 ∧ ¬ ∃ R, R 0 [] ∧ RightPool (sameBlock n size e) R := by
  refine ⟨C84_full_statement_fails.2.2.1 n size e (by omega) hs, ?_⟩
  rintro ⟨R, h0, h⟩
  obtain ⟨p, s', h1, -, h2⟩ := h.grants 0 [] size h0 (Nat.le_refl _) (by show 0 < n; omega)
  have e1 : (sameBlock n size e).allocate 0 size = .ok (.ptr 16, 1) := by
    simp only [sameBlock]; rw [if_pos ⟨Nat.le_refl _, by omega⟩]
  rw [e1] at h1
  injection h1 with h1
  injection h1 with h3 h4
  injection h3 with h3
  subst h3; subst h4
  have e2 : (sameBlock n size e).allocate 1 size = .ok (.ptr 16, 2) := by
    simp only [sameBlock]; rw [if_pos ⟨Nat.le_refl _, by omega⟩]
  exact h.fresh 1 [16] size 16 2 h2 e2 (by simp)

/-! ## C85 -/

/-- C85: the suite accepts every right pair of bit copies. -/
theorem C85_copies (c : Copies) (h : RightCopies c) : ∀ t ∈ copyTests, Passes (t c) := by
  -- the two kinds of calls whose results the tests look at
  have out : ∀ (dst e : List Byte) (q : Nat), e.length = dst.length → (∀ j, j < q → e.getD j 0 = dst.getD j 0) →
      ∀ j, j < q ∨ dst.length ≤ j → e.getD j 0 = dst.getD j 0 := by
    intro dst e q h1 h2 j hj
    rcases hj with hj | hj
    · exact h2 j hj
    · rw [List.getD_eq_getElem?_getD, List.getD_eq_getElem?_getD, List.getElem?_eq_none (by omega), List.getElem?_eq_none hj]
  have uaw : ∀ (src dst e : List Byte) (off len n : Nat), (len = 8 * dst.length ∧ n = len - off ∧ off < len ∧ dst.length ≤ src.length ∧
      dst.length < 2 ^ 61 ∧ e.length = dst.length ∧ (∀ j, j < off / 8 → e.getD j 0 = dst.getD j 0) ∧
      num (part (off / 8) dst.length e) = num (part (off / 8) dst.length src) / 2 ^ (off % 8) +
        num (part (off / 8) dst.length dst) / 2 ^ (8 * (part (off / 8) dst.length dst).length - off % 8) *
          2 ^ (8 * (part (off / 8) dst.length dst).length - off % 8)) →
      c.ua (some src) off (some dst) len = .ok (n, some e) := by
    rintro src dst e off len n ⟨rfl, rfl, h1, h2, h4, h5, h6, h7⟩
    obtain ⟨d, g1, g2, g3, g4⟩ := h.ua_whole src dst off dst.length h1 h2 (Nat.le_refl _) h4
    rw [g1, eq_of_part (q := off / 8) (m := dst.length) (g2.trans h5.symm) (by omega)
      (fun j hj => (g3 j hj).trans (out dst e _ h5 h6 j hj).symm) (Eq.trans g4 h7.symm)]
  have auw : ∀ (src dst e : List Byte) (off len n : Nat), (len = 8 * dst.length ∧ n = len - off ∧ off < len ∧ dst.length ≤ src.length ∧
      dst.length < 2 ^ 61 ∧ e.length = dst.length ∧ (∀ j, j < off / 8 → e.getD j 0 = dst.getD j 0) ∧
      num (part (off / 8) dst.length e) = num (part (off / 8) dst.length src) * 2 ^ (off % 8) %
        2 ^ (8 * (part (off / 8) dst.length dst).length) + num (part (off / 8) dst.length dst) % 2 ^ (off % 8)) →
      c.au (some src) (some dst) off len = .ok (n, some e) := by
    rintro src dst e off len n ⟨rfl, rfl, h1, h2, h4, h5, h6, h7⟩
    obtain ⟨d, g1, g2, g3, g4⟩ := h.au_whole src dst off dst.length h1 h2 (Nat.le_refl _) h4
    rw [g1, eq_of_part (q := off / 8) (m := dst.length) (g2.trans h5.symm) (by omega)
      (fun j hj => (g3 j hj).trans (out dst e _ h5 h6 j hj).symm) (Eq.trans g4 h7.symm)]
  have uap : ∀ (src dst e : List Byte) (off len : Nat), 0 < len → off + len ≤ 8 → 0 < src.length → 0 < dst.length →
      IsBitCopy src off dst 0 len e → c.ua (some src) off (some dst) len = .ok (len, some e) := by
    intro src dst e off len h1 h2 h3 h4 h5
    obtain ⟨d, g1, g2⟩ := h.ua_part src dst off len h1 h2 h3 h4
    rw [g1, isBitCopy_unique g2 h5]
  have aup : ∀ (src dst e : List Byte) (off len : Nat), 0 < len → off + len ≤ 8 → 0 < src.length → 0 < dst.length →
      IsBitCopy src 0 dst off len e → c.au (some src) (some dst) off len = .ok (len, some e) := by
    intro src dst e off len h1 h2 h3 h4 h5
    obtain ⟨d, g1, g2⟩ := h.au_part src dst off len h1 h2 h3 h4
    rw [g1, isBitCopy_unique g2 h5]
  have eua : ∀ {src dst e : Option (List Byte)} {off len n : Nat}, c.ua src off dst len = .ok (n, e) →
      c.expectUa src off dst len n e = pure () := by
    intro src dst e off len n hh; simp [Copies.expectUa, hh]
  have eau : ∀ {src dst e : Option (List Byte)} {off len n : Nat}, c.au src dst off len = .ok (n, e) →
      c.expectAu src dst off len n e = pure () := by
    intro src dst e off len n hh; simp [Copies.expectAu, hh]
  intro t ht
  simp only [copyTests, List.mem_cons, List.not_mem_nil, or_false] at ht
  rcases ht with rfl | rfl | rfl | rfl | rfl | rfl | rfl | rfl | rfl | rfl | rfl | rfl <;> refine passes_ok (a := ()) ?_
  · simp [InputsValidation, Copies.expectZero, h.ua_nothing, h.au_nothing]
  · simp only [OneByteAlignedIntoOneAligned, eua (uaw [0x55] [0xFF] [0x55] 0 8 8 (by decide +kernel)),
      eau (auw [0x55] [0x55] [0x55] 0 8 8 (by decide +kernel)), pure_bind']
  · simp only [OneByteAlignedIntoOneUnaligned, eau (auw [0x55] [0xFF] [0xAB] 1 8 7 (by decide +kernel)),
      eau (auw [0x55] [0x00] [0xAA] 1 8 7 (by decide +kernel)), pure_bind']
  · simp only [OneByteUnalignedIntoOneAligned,
      eua (uap [0x55] [0xFF] [0xAA] 1 7 (by decide) (by decide) (by decide) (by decide) (by unfold IsBitCopy; decide)),
      eua (uap [0x55] [0x00] [0x2A] 1 7 (by decide) (by decide) (by decide) (by decide) (by unfold IsBitCopy; decide)), pure_bind']
  · exact eua (uap [0xFF] [0x80] [0x83] 6 2 (by decide) (by decide) (by decide) (by decide) (by unfold IsBitCopy; decide))
  · exact eau (aup [0xFF] [0x01] [0xC1] 6 2 (by decide) (by decide) (by decide) (by decide) (by unfold IsBitCopy; decide))
  · simp only [TwoByteAlignedIntoTwoAligned, eua (uaw [0x55, 0x55] [0xFF, 0xFF] [0x55, 0x55] 0 16 16 (by decide +kernel)),
      eau (auw [0x55, 0x55] [0xFF, 0xFF] [0x55, 0x55] 0 16 16 (by decide +kernel)), pure_bind']
  · simp only [TwoByteUnalignedIntoTwoAligned, eua (uaw [0x55, 0x55] [0xFF, 0xFF] [0xAA, 0xAA] 1 16 15 (by decide +kernel)),
      eua (uaw [0x55, 0x55] [0x00, 0x00] [0x2A, 0xAA] 1 16 15 (by decide +kernel)), pure_bind']
  · simp only [TwoByteAlignedIntoTwoUnaligned, eau (auw [0xAA, 0xAA] [0xFF, 0xFF] [0x55, 0x55] 1 16 15 (by decide +kernel)),
      eau (auw [0xAA, 0xAA] [0x00, 0x00] [0x55, 0x54] 1 16 15 (by decide +kernel)), pure_bind']
  · exact eua (uaw _ _ _ 1 96 95 (by decide +kernel))
  · simp only [SrcOffsetIsGreaterThanEight, eua (uaw [0x55, 0x55] [0xFF, 0xFF] [0xFF, 0xAA] 9 16 7 (by decide +kernel)),
      eua (uaw [0x55, 0x55] [0x00, 0x00] [0x00, 0x2A] 9 16 7 (by decide +kernel)), pure_bind']
  · simp only [DstOffsetIsGreaterThanEight, eau (auw [0x55, 0x55] [0xFF, 0xFF] [0xFF, 0xAB] 9 16 7 (by decide +kernel)),
      eau (auw [0x55, 0x55] [0x00, 0x00] [0x00, 0xAA] 9 16 7 (by decide +kernel)), pure_bind']

/-- C85: the suite accepts every right allocator, in any order of the tests and any number of repetitions, from any state in which all
blocks are back. (That blocks are not handed out twice is not needed.) -/
theorem C85_pool {σ : Type} (a : Allocator σ) (R : σ → List Nat → Prop) (h : RightPool a R) (s : σ) (hr : R s []) : PoolPasses a s := by
  intro ts
  obtain ⟨s', h1, -⟩ := h.toCounts.run ts hr
  exact ⟨s', h1⟩

/-- The library's allocator is right. -/
theorem library_rightPool {c : Pool.Cfg} (hc : c.WF) (spurious : Nat → Nat) :
    RightPool (libraryAllocator c spurious) fun s live => ∃ free, Pool.Inv c s.1 free live where
  toCounts := library_counts hc spurious
  fresh := by
    rintro s live size p s' ⟨free, h⟩ ha hp
    have hal := h.allocate hc size (spurious s.2)
    cases hs : stackAlloc c.blockSize free size with
    | none =>
      rw [hs] at hal
      simp only at hal
      cases he : c.exceptions <;> simp [libraryAllocator, hal, Pool.failure, he] at ha
    | some x =>
      obtain ⟨q, rest⟩ := x
      rw [hs] at hal
      obtain ⟨s1, h1, -, h2⟩ := hal
      simp [libraryAllocator, h1] at ha
      obtain ⟨rfl, -⟩ := ha
      have := (List.nodup_append.1 h2.nodup).2.1
      exact absurd hp (List.nodup_cons.1 this).1

/-- An assertion the suite could make after memory.hpp:120 and does not: no two of the pointers in `allocations` are the same. -/
def comparesPointers {σ : Type} (a : Allocator σ) (s : σ) : Bool :=
  match a.allocAll a.numBlocks s with
  | .ok (some ps, _) => decide ps.Nodup
  | _ => false

theorem RightPool.allocAll_fresh {σ : Type} {a : Allocator σ} {R : σ → List Nat → Prop} (h : RightPool a R) :
    ∀ (n : Nat) {s : σ} {live : List Nat}, R s live → live.length + n ≤ a.numBlocks →
      ∃ ps s', a.allocAll n s = .ok (some ps, s') ∧ ps.Nodup ∧ ∀ p ∈ ps, p ∉ live
  | 0, s, live, _, _ => ⟨[], s, rfl, List.nodup_nil, by simp⟩
  | n + 1, s, live, hr, hl => by
    obtain ⟨p, s1, h1, h2, h3⟩ := h.grants s live a.blockSize hr (Nat.le_refl _) (by omega)
    have h4 := h.fresh s live a.blockSize p s1 hr h1
    obtain ⟨ps, s2, h5, h6, h7⟩ := h.allocAll_fresh n h3 (by simp only [List.length_cons]; omega)
    refine ⟨p :: ps, s2, by simp [Allocator.allocAll, Allocator.allocOne, h1, h2, h5],
      List.nodup_cons.2 ⟨fun hp => h7 p hp (by simp), h6⟩, ?_⟩
    intro q hq
    rcases List.mem_cons.1 hq with rfl | hq
    · exact h4
    · exact fun hl => h7 q hq (List.mem_cons_of_mem _ hl)

/-- C84, partial: what one more assertion would say. With the pointers compared, an allocator that passes hands out `NumBlocks` different
blocks and then refuses; every right allocator still passes, the library's among them; the one that always hands out the same block does
not. Missing as before: that blocks are different after other calls than those of the tests. -/
theorem C84_pool_compared_partial {σ : Type} (a : Allocator σ) (s : σ) :
    (PoolPasses a s → comparesPointers a s = true →
      ∃ ps s1 s2, ps.length = a.numBlocks ∧ ps.Nodup ∧ Serves a a.blockSize s ps s1 ∧ Refuses a a.blockSize s1 s2 ∧
        ∃ s3, TakesBack a a.blockSize s2 ps s3) ∧
    (∀ R, RightPool a R → R s [] → PoolPasses a s ∧ comparesPointers a s = true) := by
  refine ⟨fun h hc => ?_, fun R h hr => ⟨C85_pool a R h s hr, ?_⟩⟩
  · obtain ⟨s4, h4⟩ := h [.AllocTillOutOfMemoryThenDealloc]
    cases hf : a.fillAndEmpty s with
    | ub r => simp [Allocator.run, Allocator.test, hf] at h4
    | ok x =>
      obtain ⟨b, s5⟩ := x
      cases b with
      | false => simp [Allocator.run, Allocator.test, hf] at h4
      | true =>
        cases ha : a.allocAll a.numBlocks s with
        | ub r => simp [comparesPointers, ha] at hc
        | ok y =>
          obtain ⟨o, s6⟩ := y
          cases o with
          | none => simp [comparesPointers, ha] at hc
          | some qs =>
            obtain ⟨h6, h7⟩ := serves_of_allocAll ha
            cases hg : a.allocFails s6 a.blockSize with
            | ub r => simp [Allocator.fillAndEmpty, ha, hg] at hf
            | ok z =>
              obtain ⟨b, s7⟩ := z
              cases b with
              | false => simp [Allocator.fillAndEmpty, ha, hg] at hf
              | true =>
                cases hd : a.deallocAll qs s7 with
                | ub r => simp [Allocator.fillAndEmpty, ha, hg, hd] at hf
                | ok s8 =>
                  exact ⟨qs, s6, s7, h6, by simpa [comparesPointers, ha] using hc, h7, refuses_of_allocFails hg, s8,
                    takesBack_of_deallocAll hd⟩
  · obtain ⟨ps, s', h1, h2, -⟩ := h.allocAll_fresh a.numBlocks hr (by simp)
    simp [comparesPointers, h1, h2]

/-- The assertion finds the allocator which always hands out the same block, whatever its size. -/
theorem C84_compared_catches (n size : Nat) (e : Bool) (hn : 2 ≤ n) (hs : 0 < size) :
    PoolPasses (sameBlock n size e) 0 ∧ comparesPointers (sameBlock n size e) 0 = false := by
  refine ⟨(C84_pool_statement_fails n size e hn hs).1, ?_⟩
  cases hc : comparesPointers (sameBlock n size e) 0 with
  | false => rfl
  | true =>
    obtain ⟨ps, s1, s2, h1, h2, h3, -⟩ := (C84_pool_compared_partial _ _).1 (C84_pool_statement_fails n size e hn hs).1 hc
    have all16 : ∀ {s qs s'}, Serves (sameBlock n size e) (sameBlock n size e).blockSize s qs s' → ∀ q ∈ qs, q = 16 := by
      intro s qs s' h
      induction h with
      | nil => simp
      | @cons s s1 s2 p ps ha _ _ ih =>
        intro q hq
        rcases List.mem_cons.1 hq with rfl | hq
        · simp only [sameBlock] at ha
          split at ha <;> cases e <;> simp_all
        · exact ih q hq
    have h4 := all16 h3
    have h5 : ps.length = n := h1
    match ps, h5, h2, h4 with
    | p :: q :: _, _, h2, h4 =>
      have e1 := h4 p (by simp)
      have e2 := h4 q (by simp)
      subst e1 e2
      exact absurd h2 (by simp)
    | [], h5, _, _ => simp at h5; omega
    | [_], h5, _, _ => simp at h5; omega

/-- Eight blocks of 255 bytes, as in the library's own tests. -/
example : comparesPointers (libraryAllocator ⟨8, 255, 8, 16, 32, 4096, true⟩ fun _ => 0)
    (Pool.init ⟨8, 255, 8, 16, 32, 4096, true⟩ (fun _ => 0), 0) = true ∧ comparesPointers (sameBlock 8 255 true) 0 = false := by
  refine ⟨?_, (C84_compared_catches 8 255 true (by decide) (by decide)).2⟩
  have hc : (⟨8, 255, 8, 16, 32, 4096, true⟩ : Pool.Cfg).WF :=
    ⟨by decide, by decide, by decide, by decide, by decide, by decide, by decide, by decide⟩
  exact ((C84_pool_compared_partial _ _).2 _ (library_rightPool hc fun _ => 0) (Pool.History.inv hc (Pool.History.start _))).2

/-- Another wrong allocator: the block it hands out depends only on how many are in use. -/
def byCount (n size : Nat) (exceptions : Bool) : Allocator Nat where
  numBlocks := n
  blockSize := size
  exceptions := exceptions
  allocate s k := .ok (if k ≤ size ∧ s < n then (.ptr (16 * (s + 1)), s + 1) else (if exceptions then .badAlloc else .null, s))
  deallocate s p _ := .ok (if p = 0 then s else s - 1)

theorem byCount_counts {n size : Nat} (hn : 0 < n) (hs : 0 < size) (e : Bool) :
    (byCount n size e).Counts fun s live => live.length = s ∧ ∀ p ∈ live, p ≠ 0 where
  some_blocks := hn
  some_size := hs
  grants := by
    intro s live k hr hk hl
    have hk' : k ≤ size := hk
    have hl' : live.length < n := hl
    exact ⟨16 * (s + 1), s + 1, by simp only [byCount]; rw [if_pos ⟨hk', by omega⟩], by omega, by simp [hr.1], by
      intro p hp; rcases List.mem_cons.1 hp with h | h
      · omega
      · exact hr.2 p h⟩
  refuses := by
    intro s live k hr hl
    have hl' : size < k ∨ live.length = n := hl
    exact ⟨s, by simp only [byCount]; rw [if_neg (by omega)]; cases e <;> rfl, hr⟩
  takes_back := by
    intro s live p k hr hp
    refine ⟨s - 1, by simp [byCount, hr.2 p hp], ?_, fun q hq => hr.2 q (List.mem_of_mem_erase hq)⟩
    rw [List.length_erase_of_mem hp, hr.1]
  takes_null := by
    intro s live k hr
    exact ⟨s, by simp [byCount], hr⟩

theorem byCount_allocAll {n size : Nat} {e : Bool} : ∀ (k s : Nat), s + k ≤ n →
    ∃ ps, (byCount n size e).allocAll k s = .ok (some ps, s + k) ∧ ps.Nodup ∧ ∀ p ∈ ps, 16 * s < p
  | 0, s, _ => ⟨[], rfl, List.nodup_nil, by simp⟩
  | k + 1, s, h => by
    obtain ⟨ps, h1, h2, h3⟩ := byCount_allocAll (n := n) (size := size) (e := e) k (s + 1) (by omega)
    have ha : (byCount n size e).allocate s (byCount n size e).blockSize = .ok (.ptr (16 * (s + 1)), s + 1) := by
      simp only [byCount]; rw [if_pos ⟨Nat.le_refl _, by omega⟩]
    refine ⟨16 * (s + 1) :: ps, ?_, List.nodup_cons.2 ⟨fun hp => absurd (h3 _ hp) (by omega), h2⟩, ?_⟩
    · simp [Allocator.allocAll, Allocator.allocOne, ha, h1]
      omega
    · intro p hp
      rcases List.mem_cons.1 hp with rfl | hp
      · omega
      · have := h3 p hp; omega

/-- C84: comparing the pointers would not be enough for C84 to hold. An allocator that goes by the number of blocks in use passes with the
comparison, and is wrong: with two blocks in use, after the first is given back it hands out the second once more. -/
theorem C84_compared_not_enough (n size : Nat) (e : Bool) (hn : 2 ≤ n) (hs : 0 < size) :
    PoolPasses (byCount n size e) 0 ∧ comparesPointers (byCount n size e) 0 = true ∧
      ¬ ∃ R, R 0 [] ∧ RightPool (byCount n size e) R := by
  refine ⟨fun ts => ?_, ?_, ?_⟩
  · obtain ⟨s', h2, -⟩ := (byCount_counts (n := n) (by omega) hs e).run ts (s := 0) ⟨rfl, by simp⟩
    exact ⟨s', h2⟩
  · obtain ⟨ps, h1, h2, -⟩ := byCount_allocAll (n := n) (size := size) (e := e) n 0 (by omega)
    have h1' : (byCount n size e).allocAll (byCount n size e).numBlocks 0 = .ok (some ps, 0 + n) := h1
    simp [comparesPointers, h1', h2]
  · rintro ⟨R, h0, h⟩
    have alloc : ∀ s, s < n → (byCount n size e).allocate s size = .ok (.ptr (16 * (s + 1)), s + 1) := by
      intro s hs; simp only [byCount]; rw [if_pos ⟨Nat.le_refl _, hs⟩]
    have get : ∀ s live, s < n → live.length < n → R s live → R (s + 1) (16 * (s + 1) :: live) := by
      intro s live hs hl hr
      obtain ⟨p, s', h1, -, h2⟩ := h.grants s live size hr (Nat.le_refl _) hl
      rw [alloc s hs] at h1
      injection h1 with h1
      injection h1 with h3 h4
      injection h3 with h3
      subst h3; subst h4
      exact h2
    have h1 := get 0 [] (by omega) (by simp only [List.length_nil]; omega) h0
    have h2 := get 1 [16] (by omega) (by simp only [List.length_cons, List.length_nil]; omega) h1
    obtain ⟨s', h3, h4⟩ := h.takes_back 2 [32, 16] 16 size h2 (by simp)
    have h5 : (byCount n size e).deallocate 2 16 size = .ok 1 := rfl
    rw [h5] at h3
    injection h3 with h3
    subst h3
    exact h.fresh 1 _ size 32 2 h4 (alloc 1 (by omega)) (by simp)

/-! A right pair of bit copies exists. -/

/-- The byte with given bits. -/
def byteOfBits (f : Nat → Bool) : Byte := (BitVec.iunfoldr (fun (i : Fin 8) (_ : Unit) => ((), f i)) ()).2

theorem byteOfBits_getLsbD (f : Nat → Bool) {b : Nat} (hb : b < 8) : (byteOfBits f).getLsbD b = f b :=
  BitVec.iunfoldr_getLsbD (f := fun (i : Fin 8) (_ : Unit) => ((), f i)) (fun _ => ()) ⟨b, hb⟩ fun _ => rfl

/-- `dst` with new bits. -/
def rebuild (dst : List Byte) (F : Nat → Nat → Bool) : List Byte := (List.range dst.length).map fun k => byteOfBits (F k)

theorem rebuild_length (dst : List Byte) (F : Nat → Nat → Bool) : (rebuild dst F).length = dst.length := by simp [rebuild]

theorem rebuild_bit (dst : List Byte) (F : Nat → Nat → Bool) {k b : Nat} (hk : k < dst.length) (hb : b < 8) :
    ((rebuild dst F).getD k 0).getLsbD b = F k b := by
  rw [List.getD_eq_getElem?_getD, List.getElem?_eq_getElem (by rw [rebuild_length]; exact hk)]
  simp [rebuild, byteOfBits_getLsbD (F k) hb]

theorem rebuild_same (dst : List Byte) (F : Nat → Nat → Bool) {k : Nat} (h : ∀ b, F k b = (dst.getD k 0).getLsbD b) :
    (rebuild dst F).getD k 0 = dst.getD k 0 := by
  by_cases hk : k < dst.length
  · refine BitVec.eq_of_getLsbD_eq fun b hb => ?_
    rw [rebuild_bit dst F hk hb, h]
  · rw [List.getD_eq_getElem?_getD, List.getD_eq_getElem?_getD, List.getElem?_eq_none (by rw [rebuild_length]; omega),
      List.getElem?_eq_none (by omega)]

/-- The bits a right copy out of the middle of `src` leaves. -/
def idealUa (src : List Byte) (off : Nat) (dst : List Byte) (len k b : Nat) : Bool :=
  if len % 8 = 0 ∧ off < len then
    if off / 8 ≤ k ∧ k < len / 8 then
      if off % 8 + b < 8 then (src.getD k 0).getLsbD (off % 8 + b)
      else if off / 8 < k then (src.getD (k - 1) 0).getLsbD (off % 8 + b - 8)
      else (dst.getD k 0).getLsbD b
    else (dst.getD k 0).getLsbD b
  else if 8 * k + b < len then (src.getD ((off + (8 * k + b)) / 8) 0).getLsbD ((off + (8 * k + b)) % 8) else (dst.getD k 0).getLsbD b

/-- The bits a right copy into the middle of `dst` leaves. -/
def idealAu (src dst : List Byte) (off len k b : Nat) : Bool :=
  if len % 8 = 0 ∧ off < len then
    if off / 8 ≤ k ∧ k < len / 8 then
      if off % 8 ≤ b then (src.getD k 0).getLsbD (b - off % 8)
      else if k + 1 < len / 8 then (src.getD (k + 1) 0).getLsbD (8 - off % 8 + b)
      else (dst.getD k 0).getLsbD b
    else (dst.getD k 0).getLsbD b
  else if off ≤ 8 * k + b ∧ 8 * k + b < off + len then
    (src.getD ((8 * k + b - off) / 8) 0).getLsbD ((8 * k + b - off) % 8) else (dst.getD k 0).getLsbD b

/-- A right pair of bit copies. -/
def ideal : Copies where
  ua src off dst len := match src, dst with
    | some s, some d => if len = 0 then .ok (0, some d) else
      .ok (if len % 8 = 0 ∧ off < len then len - off else len, some (rebuild d (idealUa s off d len)))
    | _, d => .ok (0, d)
  au src dst off len := match src, dst with
    | some s, some d => if len = 0 then .ok (0, some d) else
      .ok (if len % 8 = 0 ∧ off < len then len - off else len, some (rebuild d (idealAu s d off len)))
    | _, d => .ok (0, d)

theorem ideal_right : RightCopies ideal where
  ua_nothing := by
    intro src off dst len h
    cases src <;> cases dst <;> simp [ideal] at h ⊢
    simp [h]
  au_nothing := by
    intro src dst off len h
    cases src <;> cases dst <;> simp [ideal] at h ⊢
    simp [h]
  ua_part := by
    intro src dst off len h0 h8 hs hd
    refine ⟨rebuild dst (idealUa src off dst len), ?_, rebuild_length _ _, ?_⟩
    · simp only [ideal, if_neg (show ¬ len = 0 by omega)]
      split
      · rw [show len - off = len by omega]
      · rfl
    · intro i hi
      rw [bit, rebuild_bit _ _ (by omega) (by omega), idealUa]
      split
      · obtain rfl : off = 0 := by omega
        obtain rfl : len = 8 := by omega
        by_cases h : i < 8
        · rw [if_pos (by omega), if_pos (by omega), if_pos (by omega), bit, Nat.zero_add]
          simp only [Nat.sub_zero, Nat.zero_add]
        · rw [if_neg (by omega), if_neg (by omega), bit]
      · rw [show 8 * (i / 8) + i % 8 = i by omega]
        by_cases h : i < len
        · rw [if_pos h, if_pos (by omega), bit, Nat.sub_zero]
        · rw [if_neg h, if_neg (by omega), bit]
  au_part := by
    intro src dst off len h0 h8 hs hd
    refine ⟨rebuild dst (idealAu src dst off len), ?_, rebuild_length _ _, ?_⟩
    · simp only [ideal, if_neg (show ¬ len = 0 by omega)]
      split
      · rw [show len - off = len by omega]
      · rfl
    · intro i hi
      rw [bit, rebuild_bit _ _ (by omega) (by omega), idealAu]
      split
      · obtain rfl : off = 0 := by omega
        obtain rfl : len = 8 := by omega
        by_cases h : i < 8
        · rw [if_pos (by omega), if_pos (by omega), if_pos (by omega), bit, Nat.zero_add]
          simp only [Nat.sub_zero, Nat.zero_mod]
        · rw [if_neg (by omega), if_neg (by omega), bit]
      · rw [show 8 * (i / 8) + i % 8 = i by omega]
        by_cases h : off ≤ i ∧ i < off + len
        · rw [if_pos h, if_pos h, bit, Nat.zero_add]
        · rw [if_neg h, if_neg h, bit]
  ua_whole := by
    intro src dst off m h0 hs hd _
    have hc : 8 * m % 8 = 0 ∧ off < 8 * m := ⟨by omega, h0⟩
    refine ⟨rebuild dst (idealUa src off dst (8 * m)), ?_, rebuild_length _ _, ?_, ?_⟩
    · simp only [ideal, if_neg (show ¬ 8 * m = 0 by omega), if_pos hc]
    · intro j hj
      refine rebuild_same _ _ fun b => ?_
      rw [idealUa, if_pos hc, if_neg (by omega)]
    · rw [shiftedRight_iff (n := m - off / 8) (by omega) (by omega) (part_length hs) (part_length hd)
        (part_length (by rw [rebuild_length]; exact hd))]
      intro k b hk hb
      rw [part_getD (by omega), rebuild_bit _ _ (by omega) hb, idealUa, if_pos hc, if_pos (by omega)]
      by_cases h1 : off % 8 + b < 8
      · rw [if_pos h1, if_pos h1, part_getD (by omega)]
      · rw [if_neg h1, if_neg h1]
        by_cases h2 : 0 < k
        · rw [if_pos (show off / 8 < off / 8 + k by omega), if_pos h2, part_getD (by omega), show off / 8 + (k - 1) = off / 8 + k - 1 by omega]
        · rw [if_neg (show ¬ off / 8 < off / 8 + k by omega), if_neg h2, part_getD (by omega)]
  au_whole := by
    intro src dst off m h0 hs hd _
    have hc : 8 * m % 8 = 0 ∧ off < 8 * m := ⟨by omega, h0⟩
    refine ⟨rebuild dst (idealAu src dst off (8 * m)), ?_, rebuild_length _ _, ?_, ?_⟩
    · simp only [ideal, if_neg (show ¬ 8 * m = 0 by omega), if_pos hc]
    · intro j hj
      refine rebuild_same _ _ fun b => ?_
      rw [idealAu, if_pos hc, if_neg (by omega)]
    · rw [shiftedLeft_iff (n := m - off / 8) (by omega) (by omega) (part_length hs) (part_length hd)
        (part_length (by rw [rebuild_length]; exact hd))]
      intro k b hk hb
      rw [part_getD (by omega), rebuild_bit _ _ (by omega) hb, idealAu, if_pos hc, if_pos (by omega)]
      by_cases h1 : off % 8 ≤ b
      · rw [if_pos h1, if_pos h1, part_getD (by omega)]
      · rw [if_neg h1, if_neg h1]
        by_cases h2 : k + 1 < m - off / 8
        · rw [if_pos (show off / 8 + k + 1 < 8 * m / 8 by omega), if_pos h2, part_getD (by omega), show off / 8 + (k + 1) = off / 8 + k + 1 by omega]
        · rw [if_neg (show ¬ off / 8 + k + 1 < 8 * m / 8 by omega), if_neg h2, part_getD (by omega)]

-- non-vacuous: right copies and a right pool exist; the former differ from the library's
example : (∀ t ∈ copyTests, Passes (t ideal)) ∧ RightCopies ideal ∧ ¬ RightCopies libraryCopies :=
  ⟨C85_copies _ ideal_right, ideal_right, C84_full_statement_fails.2.1.2.1⟩

/-! What the tests for bit copies establish: agreement with the right copies at 19 tuples of arguments, and no more. -/

/-- The arguments (source, offset, destination, length) of `copyBitsUnalignedToAligned` in the tests that look at the destination. -/
def uaArguments : List (List Byte × Nat × List Byte × Nat) :=
  [([0x55], 0, [0xFF], 8), ([0x55], 1, [0xFF], 7), ([0x55], 1, [0x00], 7), ([0xFF], 6, [0x80], 2),
   ([0x55, 0x55], 0, [0xFF, 0xFF], 16), ([0x55, 0x55], 1, [0xFF, 0xFF], 16), ([0x55, 0x55], 1, [0x00, 0x00], 16),
   ([0x90, 0xCA, 0xD8, 0xD8, 0xDE, 0x40, 0xEE, 0xDE, 0xE4, 0xD8, 0xC8, 0x00], 1, [0, 0, 0, 0, 0, 0, 0, 0, 0, 0, 0, 0], 96),
   ([0x55, 0x55], 9, [0xFF, 0xFF], 16), ([0x55, 0x55], 9, [0x00, 0x00], 16)]

/-- The same for `copyBitsAlignedToUnaligned` (source, destination, offset, length). -/
def auArguments : List (List Byte × List Byte × Nat × Nat) :=
  [([0x55], [0x55], 0, 8), ([0x55], [0xFF], 1, 8), ([0x55], [0x00], 1, 8), ([0xFF], [0x01], 6, 2),
   ([0x55, 0x55], [0xFF, 0xFF], 0, 16), ([0xAA, 0xAA], [0xFF, 0xFF], 1, 16), ([0xAA, 0xAA], [0x00, 0x00], 1, 16),
   ([0x55, 0x55], [0xFF, 0xFF], 9, 16), ([0x55, 0x55], [0x00, 0x00], 9, 16)]

/-- The call returns 0, whatever it does to the destination. -/
def ReturnsZero (r : Outcome (Nat × Option (List Byte))) : Prop := ∃ d, r = .ok (0, d)

theorem passes_expectUa_bind {c : Copies} {src dst : Option (List Byte)} {off len n : Nat} {e : Option (List Byte)} {f : Unit → Check Unit} :
    Passes (c.expectUa src off dst len n e >>= f) ↔ c.ua src off dst len = .ok (n, e) ∧ Passes (f ()) := by
  unfold Copies.expectUa Passes
  cases h : c.ua src off dst len with
  | ub r => simp <;> intro x hx <;> cases hx
  | ok x =>
    obtain ⟨k, d⟩ := x
    by_cases h1 : k = n <;> by_cases h2 : d = e <;> simp [h1, h2, ASSERT] <;> first | rfl | (intro x hx; cases hx)

theorem passes_expectUa {c : Copies} {src dst : Option (List Byte)} {off len n : Nat} {e : Option (List Byte)} :
    Passes (c.expectUa src off dst len n e) ↔ c.ua src off dst len = .ok (n, e) := by
  unfold Copies.expectUa Passes
  cases h : c.ua src off dst len with
  | ub r => simp <;> intro x hx <;> cases hx
  | ok x =>
    obtain ⟨k, d⟩ := x
    by_cases h1 : k = n <;> by_cases h2 : d = e <;> simp [h1, h2, ASSERT] <;> first | rfl | (intro x hx; cases hx)

theorem passes_expectAu_bind {c : Copies} {src dst : Option (List Byte)} {off len n : Nat} {e : Option (List Byte)} {f : Unit → Check Unit} :
    Passes (c.expectAu src dst off len n e >>= f) ↔ c.au src dst off len = .ok (n, e) ∧ Passes (f ()) := by
  unfold Copies.expectAu Passes
  cases h : c.au src dst off len with
  | ub r => simp <;> intro x hx <;> cases hx
  | ok x =>
    obtain ⟨k, d⟩ := x
    by_cases h1 : k = n <;> by_cases h2 : d = e <;> simp [h1, h2, ASSERT] <;> first | rfl | (intro x hx; cases hx)

theorem passes_expectAu {c : Copies} {src dst : Option (List Byte)} {off len n : Nat} {e : Option (List Byte)} :
    Passes (c.expectAu src dst off len n e) ↔ c.au src dst off len = .ok (n, e) := by
  unfold Copies.expectAu Passes
  cases h : c.au src dst off len with
  | ub r => simp <;> intro x hx <;> cases hx
  | ok x =>
    obtain ⟨k, d⟩ := x
    by_cases h1 : k = n <;> by_cases h2 : d = e <;> simp [h1, h2, ASSERT] <;> first | rfl | (intro x hx; cases hx)

theorem passes_expectZero_bind {r : Outcome (Nat × Option (List Byte))} {f : Unit → Check Unit} :
    Passes (Copies.expectZero r >>= f) ↔ ReturnsZero r ∧ Passes (f ()) := by
  unfold Copies.expectZero Passes ReturnsZero
  cases r with
  | ub r => simp <;> intro x hx <;> cases hx
  | ok x =>
    obtain ⟨k, d⟩ := x
    by_cases h1 : k = 0 <;> simp [h1, ASSERT] <;> first | rfl | (intro x hx; cases hx)

theorem passes_expectZero {r : Outcome (Nat × Option (List Byte))} :
    Passes (Copies.expectZero r) ↔ ReturnsZero r := by
  unfold Copies.expectZero Passes ReturnsZero
  cases r with
  | ub r => simp <;> intro x hx <;> cases hx
  | ok x =>
    obtain ⟨k, d⟩ := x
    by_cases h1 : k = 0 <;> simp [h1, ASSERT] <;> first | rfl | (intro x hx; cases hx)

/-- C84, partial: the tests for bit copies pass exactly if the copies agree with right ones at the arguments of the tests, and return 0
where there is nothing to copy. Missing: all other arguments. -/
theorem C84_copies_partial (c r : Copies) (hr : RightCopies r) :
    (∀ t ∈ copyTests, Passes (t c)) ↔
      (∀ x ∈ uaArguments, c.ua (some x.1) x.2.1 (some x.2.2.1) x.2.2.2 = r.ua (some x.1) x.2.1 (some x.2.2.1) x.2.2.2) ∧
      (∀ x ∈ auArguments, c.au (some x.1) (some x.2.1) x.2.2.1 x.2.2.2 = r.au (some x.1) (some x.2.1) x.2.2.1 x.2.2.2) ∧
      (∀ d : List Byte, d = [0, 0, 0, 0] →
        ReturnsZero (c.ua none 0 (some d) 32) ∧ ReturnsZero (c.ua (some d) 0 none 32) ∧ ReturnsZero (c.ua (some d) 0 (some d) 0) ∧
        ReturnsZero (c.au none (some d) 0 32) ∧ ReturnsZero (c.au (some d) none 0 32) ∧ ReturnsZero (c.au (some d) (some d) 0 0)) := by
  have key : ∀ c : Copies, (∀ t ∈ copyTests, Passes (t c)) ↔
      _ := fun c => by
    simp only [copyTests, List.forall_mem_cons, List.not_mem_nil, false_implies, implies_true, and_true, InputsValidation,
      OneByteAlignedIntoOneAligned, OneByteAlignedIntoOneUnaligned, OneByteUnalignedIntoOneAligned, TwoBitsUnalignedIntoAligned,
      TwoBitsAlignedIntoUnaligned, TwoByteAlignedIntoTwoAligned, TwoByteUnalignedIntoTwoAligned, TwoByteAlignedIntoTwoUnaligned,
      StringUnalignedIntoStringAligned, SrcOffsetIsGreaterThanEight, DstOffsetIsGreaterThanEight, passes_expectUa_bind,
      passes_expectAu_bind, passes_expectZero_bind, passes_expectUa, passes_expectAu, passes_expectZero]
    exact Iff.rfl
  have hr' := (key r).1 (C85_copies r hr)
  rw [key c]
  obtain ⟨-, ⟨a1, a2⟩, ⟨a3, a4⟩, ⟨a5, a6⟩, a7, a8, ⟨a9, a10⟩, ⟨a11, a12⟩, ⟨a13, a14⟩, a15, ⟨a16, a17⟩, a18, a19⟩ := hr'
  have e : (List.map (fun b : Byte => b <<< 1) ([0x48, 0x65, 0x6c, 0x6c, 0x6f, 0x20, 0x77, 0x6f, 0x72, 0x6c, 0x64, 0x00] : List Byte)) =
      [0x90, 0xCA, 0xD8, 0xD8, 0xDE, 0x40, 0xEE, 0xDE, 0xE4, 0xD8, 0xC8, 0x00] := by decide
  rw [e] at a15 ⊢
  simp only [uaArguments, auArguments, List.forall_mem_cons, List.not_mem_nil, false_implies, implies_true, and_true, forall_eq,
    a1, a2, a3, a4, a5, a6, a7, a8, a9, a10, a11, a12, a13, a14, a16, a17, a18, a19]
  constructor
  · rintro ⟨⟨b1, b2, b3, b4, b5, b6⟩, ⟨c1, c2⟩, ⟨c3, c4⟩, ⟨c5, c6⟩, c7, c8, ⟨c9, c10⟩, ⟨c11, c12⟩, ⟨c13, c14⟩, c15, ⟨c16, c17⟩, c18, c19⟩
    exact ⟨⟨c1, c5, c6, c7, c9, c11, c12, c15.trans a15.symm, c16, c17⟩, ⟨c2, c3, c4, c8, c10, c13, c14, c18, c19⟩,
      b1, b3, b5, b2, b4, b6⟩
  · rintro ⟨⟨c1, c5, c6, c7, c9, c11, c12, c15, c16, c17⟩, ⟨c2, c3, c4, c8, c10, c13, c14, c18, c19⟩, b1, b3, b5, b2, b4, b6⟩
    exact ⟨⟨b1, b2, b3, b4, b5, b6⟩, ⟨c1, c2⟩, ⟨c3, c4⟩, ⟨c5, c6⟩, c7, c8, ⟨c9, c10⟩, ⟨c11, c12⟩, ⟨c13, c14⟩, c15.trans a15,
      ⟨c16, c17⟩, c18, c19⟩


end Uavcan.Suite
