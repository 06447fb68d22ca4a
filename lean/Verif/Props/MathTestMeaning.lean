import Verif.Props.MathTest

/-!
# C117: what the unit tests of saturating arithmetic mean

C86 says that right operations pass the tests of `test/native/test_util_math.cpp` (but for one). Here is the other direction: what is
known of operations that pass them.
-/

namespace Uavcan.MathTest
open Suite Spec

/-- The property as stated in `properties.jsonl`. -/
def C117_Statement : Prop :=
  ∀ (k : Kind) (w : Nat), IsPair k w → ∀ o : Ops, (∀ t ∈ tests, Passes (t o k w)) → Exact o k w

/-- A sum (`true`) or a difference of two numbers. -/
structure Query where
  sum : Bool
  a : Int
  b : Int
  deriving DecidableEq

/-- The answer of the operations. -/
def Ops.answer (o : Ops) (q : Query) : Outcome Int := if q.sum then o.add q.a q.b else o.sub q.a q.b

/-- What the tests ask for, each with the answer they expect, for integers of `w` bits; here for two signed types, with `h` for
`2^(w-1)` (test_util_math.cpp:104–340, in the order of the tests). -/
def askedSigned (h : Int) : List (Query × Int) :=
  [(⟨true, h - 1, 1⟩, h - 1), (⟨false, -h, 1⟩, -h), (⟨true, h - 3, 1⟩, h - 2), (⟨false, -h + 2, 1⟩, -h + 1),
   (⟨true, h - 1, h - 1⟩, h - 1), (⟨true, -h, h - 1⟩, -1), (⟨true, -h, -h⟩, -h), (⟨true, h - 1, -h⟩, -1),
   (⟨true, h - 1, -h + 1⟩, 0), (⟨true, -h + 1, -h⟩, -h), (⟨true, 0, h - 1⟩, h - 1), (⟨true, h - 1, 0⟩, h - 1),
   (⟨false, h - 1, h - 1⟩, 0), (⟨false, -h, h - 1⟩, -h), (⟨false, -h, -h⟩, 0), (⟨false, h - 1, -h⟩, h - 1),
   (⟨false, h - 1, -h + 1⟩, h - 1), (⟨false, -h + 1, -h⟩, 1)]

/-- The same for two unsigned types, with `m` for the maximum `2^w - 1`. -/
def askedUnsigned (m : Int) : List (Query × Int) :=
  [(⟨true, m, 1⟩, m), (⟨false, 0, 1⟩, 0), (⟨true, m - 2, 1⟩, m - 1), (⟨false, 2, 1⟩, 1), (⟨true, m, m⟩, m), (⟨true, 0, m⟩, m),
   (⟨true, 0, 0⟩, 0), (⟨true, m, 0⟩, m), (⟨true, 1, 0⟩, 1), (⟨false, m, m⟩, 0), (⟨false, 0, m⟩, 0), (⟨false, 0, 0⟩, 0),
   (⟨false, m, 0⟩, m), (⟨false, m, 1⟩, m - 1), (⟨false, 1, 0⟩, 1)]

/-- The same for an unsigned type on the left and a signed one on the right, with `h` for `2^(w-1)`. The sum of `2 * h - 1` and `-h + 1` is
`h`, but the test expects `h - 2`. -/
def askedMixed (h : Int) : List (Query × Int) :=
  [(⟨true, 2 * h - 1, 1⟩, 2 * h - 1), (⟨false, 0, 1⟩, 0), (⟨true, 2 * h - 3, 1⟩, 2 * h - 2), (⟨false, 2, 1⟩, 1),
   (⟨true, 2 * h - 1, h - 1⟩, 2 * h - 1), (⟨true, 0, h - 1⟩, h - 1), (⟨true, 0, -h⟩, 0), (⟨true, 2 * h - 1, -h⟩, h - 1),
   (⟨true, 2 * h - 1, -h + 1⟩, h - 2), (⟨true, 1, -h⟩, 0), (⟨true, 2 * h - 1, 0⟩, 2 * h - 1),
   (⟨false, 2 * h - 1, h - 1⟩, h), (⟨false, 0, h - 1⟩, 0), (⟨false, 0, -h⟩, h), (⟨false, 2 * h - 1, -h⟩, 2 * h - 1),
   (⟨false, 2 * h - 1, -h + 1⟩, 2 * h - 1), (⟨false, 1, -h⟩, h + 1)]

/-- What the tests ask for. -/
def asked (k : Kind) (w : Nat) : List (Query × Int) :=
  match k with
  | .signed => askedSigned (2 ^ (w - 1))
  | .unsigned => askedUnsigned (2 ^ w - 1)
  | .mixed => askedMixed (2 ^ (w - 1))

/-- The least value of the left type. -/
def least (k : Kind) (w : Nat) : Int := if k = .signed then -(2 ^ (w - 1)) else 0
/-- The greatest value of the left type. -/
def greatest (k : Kind) (w : Nat) : Int := if k = .signed then 2 ^ (w - 1) - 1 else 2 ^ w - 1
/-- The greatest value of the right type. -/
def greatestRight (k : Kind) (w : Nat) : Int := if k = .unsigned then 2 ^ w - 1 else 2 ^ (w - 1) - 1

theorem passes_expect_iff {c : Outcome Int} {e : Int} : Passes (expect c e) ↔ c = .ok e := by
  cases c with
  | ok x => rw [passes_expect rfl]; simp [eq_comm]
  | ub r =>
    simp only [reduceCtorEq, iff_false]
    rintro ⟨u, h⟩
    exact nomatch (show Outcome.ub r = Outcome.ok (some u) from h)

theorem passes_le {c : Outcome Int} {m : Int} {f : Int → Check Unit} :
    Passes (do let c ← OptionT.lift c; ASSERT (m ≤ c); f c) ↔ ∃ x, c = .ok x ∧ m ≤ x ∧ Passes (f x) := by
  cases c with
  | ub r =>
    constructor
    · rintro ⟨u, h⟩; exact nomatch (show Outcome.ub r = Outcome.ok (some u) from h)
    · rintro ⟨x, h, -⟩; cases h
  | ok x =>
    by_cases hm : m ≤ x
    · constructor
      · rintro ⟨u, h⟩; exact ⟨x, rfl, hm, u, by simpa [ASSERT, hm] using h⟩
      · rintro ⟨y, hy, -, u, h⟩; cases hy; exact ⟨u, by simpa [ASSERT, hm] using h⟩
    · constructor
      · rintro ⟨u, h⟩
        simp [ASSERT, hm] at h
        exact nomatch (show Outcome.ok none = Outcome.ok (some u) from h)
      · rintro ⟨y, hy, h, -⟩; cases hy; exact absurd h hm

theorem passes_le_last {c : Outcome Int} {m : Int} :
    Passes (do let c ← OptionT.lift c; ASSERT (m ≤ c)) ↔ ∃ x, c = .ok x ∧ m ≤ x := by
  cases c with
  | ub r =>
    constructor
    · rintro ⟨u, h⟩; exact nomatch (show Outcome.ub r = Outcome.ok (some u) from h)
    · rintro ⟨x, h, -⟩; cases h
  | ok x =>
    by_cases hm : m ≤ x
    · exact ⟨fun _ => ⟨x, rfl, hm⟩, fun _ => ⟨(), by simp [ASSERT, hm]⟩⟩
    · constructor
      · rintro ⟨u, h⟩
        simp [ASSERT, hm] at h
      · rintro ⟨y, hy, h⟩; cases hy; exact absurd h hm

/-- C117, partial: exactly what passing means, for integers of two or more bits: the right answers to at most 18 questions (one of them
wrong for mixed types), the smallest value if the greatest is subtracted from 0 twice, and the greatest if 0 is subtracted from it.
Missing: all other operands. -/
theorem C117_meaning_partial (k : Kind) (w : Nat) (hw : 2 ≤ w) (o : Ops) :
    (∀ t ∈ tests, Passes (t o k w)) ↔
      (∀ p ∈ asked k w, o.answer p.1 = .ok p.2) ∧
      (∃ c, o.sub 0 (greatestRight k w) = .ok c ∧ least k w ≤ c ∧ o.sub c (greatestRight k w) = .ok (least k w)) ∧
      (∃ c, o.sub (greatest k w) 0 = .ok c ∧ greatest k w ≤ c) := by
  have h2 : (2 : Int) ^ w = 2 * 2 ^ (w - 1) := two_pow_succ (by omega)
  have h1 : (2 : Int) ^ (w - 1) = 2 * 2 ^ (w - 1 - 1) := two_pow_succ (w := w - 1) (by omega)
  have hp := pow_pos' (w - 1 - 1)
  have l1 : toL k w (lmax k w - 2) = lmax k w - 2 := toL_self hw (by
    cases k <;> simp [IsLeft, IsInt, IsUInt, lmax, Kind.leftSigned, intMax, uintMax] <;> omega)
  have l2 : toL k w (lmax k w - 2 + 1) = lmax k w - 2 + 1 := toL_self hw (by
    cases k <;> simp [IsLeft, IsInt, IsUInt, lmax, Kind.leftSigned, intMax, uintMax] <;> omega)
  have l3 : toL k w (lmin k w + 2) = lmin k w + 2 := toL_self hw (by
    cases k <;> simp [IsLeft, IsInt, IsUInt, lmin, Kind.leftSigned, intMin] <;> omega)
  have l4 : toL k w (lmin k w + 2 - 1) = lmin k w + 2 - 1 := toL_self hw (by
    cases k <;> simp [IsLeft, IsInt, IsUInt, lmin, Kind.leftSigned, intMin] <;> omega)
  have l5 : toL k w (lmin k w + 1) = lmin k w + 1 := toL_self hw (by
    cases k <;> simp [IsLeft, IsInt, IsUInt, lmin, Kind.leftSigned, intMin] <;> omega)
  have l6 : toL k w (rmax k w) = rmax k w := toL_self hw (by
    cases k <;> simp [IsLeft, IsInt, IsUInt, rmax, Kind.rightSigned, intMax, uintMax] <;> omega)
  have l7 : toR k w (rmin k w + 1) = rmin k w + 1 := toR_self hw (by
    cases k <;> simp [IsRight, IsInt, IsUInt, rmin, Kind.rightSigned, intMin] <;> omega)
  have l8 : k = .signed → toL k w (-1) = -1 := fun h => toL_self hw (by
    subst h; simp [IsLeft, IsInt]; omega)
  have z : Passes (saturatingSubZeroFromMax o k w) ↔ ∃ c, o.sub (lmax k w) 0 = .ok c ∧ lmax k w ≤ c := by
    rw [saturatingSubZeroFromMax, passes_le_last]
  have y : Passes (saturatingSubMaxFromZero o k w) ↔
      ∃ c, o.sub 0 (rmax k w) = .ok c ∧ lmin k w ≤ c ∧ o.sub c (rmax k w) = .ok (lmin k w) := by
    rw [saturatingSubMaxFromZero, passes_le]
    simp only [passes_expect_iff]
  simp only [tests, plainTests, List.mem_cons, List.not_mem_nil, or_false, forall_eq_or_imp, forall_eq, z, y]
  simp only [saturatingAdd, saturatingSub, nonSaturatingAdd, nonSaturatingSub, saturatingAddMaxMax, saturatingAddMinMax,
    saturatingAddMinMin, saturatingAddMaxMin, saturatingAddMinPlusOneMin, saturatingAddMaxToZero, saturatingAddZeroToMax,
    saturatingSubMaxMax, saturatingSubMinMax, saturatingSubMinMin, saturatingSubMaxMin, saturatingSubMaxMinPlusOne,
    saturatingSubMinPlusOneMin, saturatingAddMaxMinPlusOne, l1, l2, l3, l4, l5, l6, l7, passes_expect_iff]
  have d : (2 * (2 : Int) ^ (w - 1) - 1) / 2 = 2 ^ (w - 1) - 1 := by omega
  cases k with
  | signed =>
    rw [l8 rfl]
    simp only [asked, askedSigned, List.mem_cons, List.not_mem_nil, or_false, forall_eq_or_imp, forall_eq, Ops.answer, lmax, lmin, rmax,
      rmin, least, greatest, greatestRight, Kind.leftSigned, Kind.rightSigned, intMin, intMax, if_true, if_false, reduceCtorEq,
      Bool.false_eq_true, beq_self_eq_true]
    clear l1 l2 l3 l4 l5 l6 l7 l8 y z d h1 h2 hp hw
    generalize (2 : Int) ^ (w - 1) = h
    grind
  | unsigned =>
    simp only [asked, askedUnsigned, List.mem_cons, List.not_mem_nil, or_false, forall_eq_or_imp, forall_eq, Ops.answer, lmax, lmin, rmax,
      rmin, least, greatest, greatestRight, Kind.leftSigned, Kind.rightSigned, uintMax, if_true, if_false, reduceCtorEq,
      Bool.false_eq_true, beq_self_eq_true]
    clear l1 l2 l3 l4 l5 l6 l7 l8 y z d h1 h2 hp hw
    generalize (2 : Int) ^ w - 1 = m
    grind
  | mixed =>
    simp only [asked, askedMixed, List.mem_cons, List.not_mem_nil, or_false, forall_eq_or_imp, forall_eq, Ops.answer, lmax, lmin, rmax,
      rmin, least, greatest, greatestRight, Kind.leftSigned, Kind.rightSigned, uintMax, intMin, intMax, if_true, if_false, reduceCtorEq,
      Bool.false_eq_true, h2, d, show (false == true) = false from rfl, show (true == false) = false from rfl]
    clear l1 l2 l3 l4 l5 l6 l7 l8 y z d h1 h2 hp hw
    generalize (2 : Int) ^ (w - 1) = h
    grind

/-- The operations with one answer changed. -/
def Ops.alter (o : Ops) (q : Query) (v : Outcome Int) : Ops where
  add a b := if q = ⟨true, a, b⟩ then v else o.add a b
  sub a b := if q = ⟨false, a, b⟩ then v else o.sub a b

/-- C117: the tests are blind to everything else: if operations pass and one answer is changed, to whatever and be it to undefined
behaviour, they still pass, unless it is one the tests ask for. -/
theorem C117_blind (k : Kind) (w : Nat) (hw : 2 ≤ w) (o : Ops) (h : ∀ t ∈ tests, Passes (t o k w)) (q : Query) (v : Outcome Int)
    (hq : ∀ p ∈ asked k w, q ≠ p.1) (h0 : q ≠ ⟨false, 0, greatestRight k w⟩)
    (hc : ∀ c, o.sub 0 (greatestRight k w) = .ok c → q ≠ ⟨false, c, greatestRight k w⟩) (hz : q ≠ ⟨false, greatest k w, 0⟩) :
    ∀ t ∈ tests, Passes (t (o.alter q v) k w) := by
  rw [C117_meaning_partial k w hw] at h ⊢
  obtain ⟨h1, ⟨c, h2, h3, h4⟩, d, h5, h6⟩ := h
  refine ⟨fun p hp => ?_, ⟨c, ?_, h3, ?_⟩, d, ?_, h6⟩
  · have hne := hq p hp
    rw [← h1 p hp]
    obtain ⟨⟨sum, a, b⟩, e⟩ := p
    cases sum
    · show (if q = ⟨false, a, b⟩ then v else o.sub a b) = o.sub a b
      rw [if_neg hne]
    · show (if q = ⟨true, a, b⟩ then v else o.add a b) = o.add a b
      rw [if_neg hne]
  · simp only [Ops.alter, if_neg h0, h2]
  · simp only [Ops.alter, if_neg (hc c h2), h4]
  · simp only [Ops.alter, if_neg hz, h5]

theorem alter_not_exact {o : Ops} {k : Kind} {w : Nat} {a b : Int} (ha : IsLeft k w a) (hb : IsRight k w b) (r : UB) :
    ¬ Exact (o.alter ⟨true, a, b⟩ (.ub r)) k w := by
  intro h
  have := h.add a b ha hb
  simp [Ops.alter] at this

/-- C117: for `bool` the tests are complete: what passes them is exact. -/
theorem C117_bool (o : Ops) : (∀ t ∈ tests, Passes (t o .unsigned 1)) ↔ Exact o .unsigned 1 := by
  constructor
  · intro h
    simp only [tests, plainTests, List.mem_cons, List.not_mem_nil, or_false, forall_eq_or_imp, forall_eq, saturatingAdd, saturatingSub,
      saturatingAddMinMax, saturatingAddMinMin, saturatingAddZeroToMax, saturatingSubMaxMax, saturatingSubMinMin,
      saturatingSubMinPlusOneMin, passes_expect_iff] at h
    obtain ⟨-, -, a11, s01, -, -, -, a01, a00, -, -, -, a10, s11, -, s00, -, -, s10, -⟩ := h
    have key : ∀ x, IsUInt 1 x → x = 0 ∨ x = 1 := by intro x hx; simp only [IsUInt] at hx; omega
    refine ⟨fun a b ha hb => ?_, fun a b ha hb => ?_⟩ <;>
    · rcases key a ha with rfl | rfl <;> rcases key b hb with rfl | rfl <;> assumption
  · intro h
    have := C86_exact_partial .unsigned 1 (.inr ⟨rfl, rfl⟩) o h
    intro t ht
    rcases List.mem_cons.1 ht with rfl | ht
    · exact this.2.2 (by decide)
    · exact this.1 t ht

/-- C117: `bool` is the only type for which they are. For two signed or two unsigned types there are wrong operations that pass; at an
unsigned and a signed type whatever passes is wrong. -/
theorem C117_complete_iff (k : Kind) (w : Nat) (hw : IsPair k w) :
    ((∀ o : Ops, (∀ t ∈ tests, Passes (t o k w)) → Exact o k w) ↔ w = 1) ∧
    (k = .mixed → ∀ o : Ops, (∀ t ∈ tests, Passes (t o k w)) → ¬ Exact o k w) := by
  have hm : k = .mixed → ∀ o : Ops, (∀ t ∈ tests, Passes (t o k w)) → ¬ Exact o k w := by
    rintro rfl o h he
    exact absurd rfl ((C86_exact_partial .mixed w hw o he).2.1 (h _ (by simp [tests])))
  refine ⟨⟨fun h => ?_, ?_⟩, hm⟩
  · apply Classical.byContradiction
    intro h1
    have hw2 : 2 ≤ w := by rcases hw with h | h; exact h; exact absurd h.2 h1
    have hh : (2 : Int) ^ (w - 1) = 2 * 2 ^ (w - 1 - 1) := two_pow_succ (w := w - 1) (by omega)
    have hp := pow_pos' (w - 1 - 1)
    have h2 : (2 : Int) ^ w = 2 * 2 ^ (w - 1) := two_pow_succ (by omega)
    by_cases hk : k = .mixed
    · subst hk
      have hl := C86_library_partial .mixed w hw
      have hpass : ∀ t ∈ tests, Passes (t (libraryOps strictAbs .mixed w) .mixed w) := by
        intro t ht
        simp only [tests, List.mem_cons] at ht
        rcases ht with rfl | rfl | ht
        · exact hl.1 _ (by simp)
        · exact hl.2.1 (by simp)
        · exact hl.1 t (by simp [ht])
      exact hm rfl _ hpass (h _ hpass)
    · let o : Ops := ⟨fun a b => .ok (nearest k w (a + b)), fun a b => .ok (nearest k w (a - b))⟩
      have ho : Exact o k w := ⟨fun _ _ _ _ => rfl, fun _ _ _ _ => rfl⟩
      have hpass : ∀ t ∈ tests, Passes (t o k w) := by
        have := C86_exact_partial k w hw o ho
        intro t ht
        rcases List.mem_cons.1 ht with rfl | ht
        · exact this.2.2 hk
        · exact this.1 t ht
      cases k with
      | mixed => exact hk rfl
      | signed =>
        refine alter_not_exact (o := o) (k := .signed) (w := w) (a := 0) (b := 0) ?_ ?_ .absOfMin
          (h _ (C117_blind .signed w hw2 o hpass ⟨true, 0, 0⟩ (.ub .absOfMin) ?_ (by simp) (by simp) (by simp)))
        · simp [IsLeft, IsInt]; omega
        · simp [IsRight, IsInt]; omega
        · simp only [asked, askedSigned, List.mem_cons, List.not_mem_nil, or_false, forall_eq_or_imp, forall_eq, ne_eq, Query.mk.injEq]
          omega
      | unsigned =>
        refine alter_not_exact (o := o) (k := .unsigned) (w := w) (a := 0) (b := 1) ?_ ?_ .absOfMin
          (h _ (C117_blind .unsigned w hw2 o hpass ⟨true, 0, 1⟩ (.ub .absOfMin) ?_ (by simp) (by simp) (by simp)))
        · simp [IsLeft, IsUInt]; omega
        · simp [IsRight, IsUInt]; omega
        · simp only [asked, askedUnsigned, List.mem_cons, List.not_mem_nil, or_false, forall_eq_or_imp, forall_eq, ne_eq, Query.mk.injEq,
            false_and, Bool.true_eq_false, true_and, and_true, not_false_eq_true]
          omega
  · rintro rfl
    rcases hw with h | ⟨rfl, -⟩
    · omega
    · exact fun o => (C117_bool o).1

/-- C117 is false: at `uint64_t` and `int64_t` the library's own operations pass though 5 + (-3) is 0. -/
theorem C117_full_statement_fails : ¬ C117_Statement ∧
    (∀ t ∈ tests, Passes (t (libraryOps strictAbs .mixed 64) .mixed 64)) ∧ (libraryOps strictAbs .mixed 64).add 5 (-3) = .ok 0 := by
  refine ⟨fun h => ?_, ?_, rfl⟩
  · exact absurd ((C117_complete_iff .unsigned 64 (.inl (by decide))).1.1 (h .unsigned 64 (.inl (by decide)))) (by decide)
  · have hl := C86_library_partial .mixed 64 (.inl (by decide))
    intro t ht
    simp only [tests, List.mem_cons] at ht
    rcases ht with rfl | rfl | ht
    · exact hl.1 _ (by simp)
    · exact hl.2.1 (by simp)
    · exact hl.1 t (by simp [ht])

/-- The questions for bytes, and one that is not asked. -/
example : (asked .unsigned 8).length = 15 ∧ (asked .signed 8).length = 18 ∧ (⟨true, 127, -128⟩, -1) ∈ asked .signed 8 ∧
    (∀ p ∈ asked .unsigned 8, (⟨true, 3, 3⟩ : Query) ≠ p.1) ∧ IsPair .unsigned 8 := by
  refine ⟨rfl, rfl, ?_, ?_, .inl ?_⟩ <;> decide

end Uavcan.MathTest
