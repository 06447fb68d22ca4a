import Verif.Lemmas.Suite
import Verif.Props.SatMath
import Verif.Spec.Clamp

/-!
# C86: what the unit tests of saturating arithmetic accept
-/

namespace Uavcan.MathTest
open Suite Spec

/-- `x` is a value of the left type. -/
def IsLeft (k : Kind) (w : Nat) (x : Int) : Prop := if k = .signed then IsInt w x else IsUInt w x
/-- `x` is a value of the right type. -/
def IsRight (k : Kind) (w : Nat) (x : Int) : Prop := if k = .unsigned then IsUInt w x else IsInt w x
/-- The value of the left type closest to `x`. -/
def nearest (k : Kind) (w : Nat) (x : Int) : Int := if k = .signed then signedClamp w x else unsignedClamp w x

/-- The operations return the exact sum or difference, or the closest value of the left type. -/
structure Exact (o : Ops) (k : Kind) (w : Nat) : Prop where
  add : ∀ a b, IsLeft k w a → IsRight k w b → o.add a b = .ok (nearest k w (a + b))
  sub : ∀ a b, IsLeft k w a → IsRight k w b → o.sub a b = .ok (nearest k w (a - b))

/-- The pairs of types in question: `bool`, and the integers of two or more bits. -/
def IsPair (k : Kind) (w : Nat) : Prop := 2 ≤ w ∨ k = .unsigned ∧ w = 1

/-- The property as stated in `properties.jsonl`: at every pair of types, exact operations pass, and so do the library's. -/
def C86_Statement : Prop :=
  ∀ k w, IsPair k w → (∀ o, Exact o k w → ∀ t ∈ tests, Passes (t o k w)) ∧ ∀ t ∈ tests, Passes (t (libraryOps strictAbs k w) k w)

/-! ## Lemmas -/

theorem passes_expect {c : Outcome Int} {e x : Int} (h : c = .ok x) : Passes (expect c e) ↔ e = x := by
  subst h
  constructor
  · rintro ⟨u, h⟩
    apply Classical.byContradiction
    intro hne
    simp [expect, ASSERT, hne] at h
  · rintro rfl
    exact passes_ok (a := ()) (by simp [expect])

/-- The operands on which the library's sum is exact. -/
def FineAdd (k : Kind) (w : Nat) (a b : Int) : Prop :=
  match k with
  | .unsigned => True
  | .signed => a ≠ 0 ∨ 0 ≤ b ∨ w < 32
  | .mixed => 0 ≤ b ∨ b = -(2 ^ (w - 1))

/-- The operands on which the library's difference is exact. -/
def FineSub (k : Kind) (w : Nat) (a b : Int) : Prop :=
  match k with
  | .unsigned => True
  | .signed => a ≠ 0 ∨ b < 0 ∨ w < 32
  | .mixed => 0 ≤ b ∨ b = -(2 ^ (w - 1)) ∨ 2 ^ w - 1 ≤ a - b

/-- Exact where the library is. -/
structure ExactWhere (o : Ops) (k : Kind) (w : Nat) : Prop where
  add : ∀ a b, IsLeft k w a → IsRight k w b → FineAdd k w a b → o.add a b = .ok (nearest k w (a + b))
  sub : ∀ a b, IsLeft k w a → IsRight k w b → FineSub k w a b → o.sub a b = .ok (nearest k w (a - b))

theorem Exact.where {o : Ops} {k : Kind} {w : Nat} (h : Exact o k w) : ExactWhere o k w :=
  ⟨fun a b ha hb _ => h.add a b ha hb, fun a b ha hb _ => h.sub a b ha hb⟩

theorem library_exactWhere {abs : Nat → Int → Outcome Int} (habs : abs = strictAbs ∨ abs = wrapAbs) {k : Kind} {w : Nat} (hw : IsPair k w) :
    ExactWhere (libraryOps abs k w) k w := by
  cases k with
  | unsigned =>
    exact ⟨fun a b ha hb _ => (SatMath.C03_unsigned_add_sub w a b ha hb).1, fun a b ha hb _ => (SatMath.C03_unsigned_add_sub w a b ha hb).2⟩
  | signed =>
    have hw : 2 ≤ w := by rcases hw with h | h; exact h; cases h.1
    refine ⟨fun a b ha hb hf => ?_, fun a b ha hb hf => ?_⟩ <;> simp only [FineAdd, FineSub] at hf
    · rcases habs with rfl | rfl
      · exact (SatMath.C01_signed_add_partial w hw a b ha hb).2 (by omega)
      · exact (SatMath.C01_signed_add_wrapping_partial w hw a b ha hb).2 (by omega)
    · rcases habs with rfl | rfl
      · exact (SatMath.C02_signed_sub_partial w hw a b ha hb).2 (by omega)
      · exact (SatMath.C02_signed_sub_wrapping_partial w hw a b ha hb).2 (by omega)
  | mixed =>
    have hw : 2 ≤ w := by rcases hw with h | h; exact h; cases h.1
    refine ⟨fun a b ha hb hf => ?_, fun a b ha hb hf => ?_⟩ <;> simp only [FineAdd, FineSub] at hf
    · exact (SatMath.C04_mixed_add_partial w hw a b ha hb).2 (by omega)
    · exact (SatMath.C05_mixed_sub_partial w hw a b ha hb).2 (by omega)

theorem toL_self {k : Kind} {w : Nat} (hw : 2 ≤ w) {x : Int} (h : IsLeft k w x) : toL k w x = x := by
  cases k with
  | signed => exact castS_of_inS (by omega) h
  | unsigned | mixed =>
    simp only [toL, Kind.leftSigned, toU, if_neg (show ¬ w = 1 by omega), Bool.false_eq_true, if_false]
    exact castU_of_inU h

theorem toR_self {k : Kind} {w : Nat} (hw : 2 ≤ w) {x : Int} (h : IsRight k w x) : toR k w x = x := by
  cases k with
  | signed | mixed => exact castS_of_inS (by omega) h
  | unsigned =>
    simp only [toR, Kind.rightSigned, toU, if_neg (show ¬ w = 1 by omega), Bool.false_eq_true, if_false]
    exact castU_of_inU h

theorem plain_pass {o : Ops} {k : Kind} {w : Nat} (hw : IsPair k w) (h : ExactWhere o k w) : ∀ t ∈ plainTests, Passes (t o k w) := by
  have ad : ∀ {a b e : Int}, IsLeft k w a ∧ IsRight k w b ∧ FineAdd k w a b ∧ e = nearest k w (a + b) → Passes (expect (o.add a b) e) :=
    fun ⟨h1, h2, h3, h4⟩ => (passes_expect (h.add _ _ h1 h2 h3)).2 h4
  have su : ∀ {a b e : Int}, IsLeft k w a ∧ IsRight k w b ∧ FineSub k w a b ∧ e = nearest k w (a - b) → Passes (expect (o.sub a b) e) :=
    fun ⟨h1, h2, h3, h4⟩ => (passes_expect (h.sub _ _ h1 h2 h3)).2 h4
  intro t ht
  simp only [plainTests, List.mem_cons, List.not_mem_nil, or_false] at ht
  rcases hw with hw | ⟨rfl, rfl⟩
  · have h2 : (2 : Int) ^ w = 2 * 2 ^ (w - 1) := two_pow_succ (by omega)
    have h1 : (2 : Int) ^ (w - 1) = 2 * 2 ^ (w - 1 - 1) := two_pow_succ (w := w - 1) (by omega)
    have hp := pow_pos' (w - 1 - 1)
    have h4 : w < 32 ∨ (4 : Int) ≤ 2 ^ (w - 1) := by
      by_cases h : w < 32
      · exact .inl h
      · have h3 : (2 : Int) ^ (w - 1 - 1) = 2 * 2 ^ (w - 1 - 1 - 1) := two_pow_succ (w := w - 1 - 1) (by omega)
        have := pow_pos' (w - 1 - 1 - 1)
        omega
    have l1 : toL k w (lmax k w - 2) = lmax k w - 2 := toL_self hw (by
      cases k <;> simp [IsLeft, IsInt, IsUInt, lmax, Kind.leftSigned, intMax, uintMax] <;> omega)
    have l2 : toL k w (lmax k w - 2 + 1) = lmax k w - 1 := by rw [toL_self hw (by
      cases k <;> simp [IsLeft, IsInt, IsUInt, lmax, Kind.leftSigned, intMax, uintMax] <;> omega)]; omega
    have l3 : toL k w (lmin k w + 2) = lmin k w + 2 := toL_self hw (by
      cases k <;> simp [IsLeft, IsInt, IsUInt, lmin, Kind.leftSigned, intMin] <;> omega)
    have l4 : toL k w (lmin k w + 2 - 1) = lmin k w + 1 := by rw [toL_self hw (by
      cases k <;> simp [IsLeft, IsInt, IsUInt, lmin, Kind.leftSigned, intMin] <;> omega)]; omega
    have l5 : toL k w (lmin k w + 1) = lmin k w + 1 := toL_self hw (by
      cases k <;> simp [IsLeft, IsInt, IsUInt, lmin, Kind.leftSigned, intMin] <;> omega)
    have l6 : toL k w (rmax k w) = rmax k w := toL_self hw (by
      cases k <;> simp [IsLeft, IsInt, IsUInt, rmax, Kind.rightSigned, intMax, uintMax] <;> omega)
    have l7 : toR k w (rmin k w + 1) = rmin k w + 1 := toR_self hw (by
      cases k <;> simp [IsRight, IsInt, IsUInt, rmin, Kind.rightSigned, intMin] <;> omega)
    have l8 : k.leftSigned = true → toL k w (-1) = -1 := fun _ => by
      cases k <;> simp_all [toL, Kind.leftSigned]
      exact castS_of_inS (by omega) (by simp only [InS, intMin, intMax]; omega)
    rcases ht with rfl | rfl | rfl | rfl | rfl | rfl | rfl | rfl | rfl | rfl | rfl | rfl | rfl | rfl | rfl | rfl | rfl | rfl
    rotate_left 17
    · have e : o.sub (lmax k w) 0 = .ok (lmax k w) := by
        rw [h.sub _ _ ?_ ?_ ?_] <;> cases k <;> simp [IsLeft, IsRight, FineSub, IsInt, IsUInt, lmax, Kind.leftSigned, intMax, uintMax,
          nearest, signedClamp, unsignedClamp, clamp] <;> omega
      exact passes_ok (a := ()) (by simp [saturatingSubZeroFromMax, e])
    all_goals simp only [saturatingAdd, saturatingSub, nonSaturatingAdd, nonSaturatingSub, saturatingAddMaxMax, saturatingAddMinMax,
      saturatingAddMinMin, saturatingAddMaxMin, saturatingAddMinPlusOneMin, saturatingAddMaxToZero, saturatingAddZeroToMax,
      saturatingSubMaxMax, saturatingSubMinMax, saturatingSubMinMin, saturatingSubMaxMin, saturatingSubMaxMinPlusOne,
      saturatingSubMinPlusOneMin, l1, l2, l3, l4, l5, l6, l7]
    all_goals first | refine ad ?_ | refine su ?_
    all_goals cases k
    all_goals simp [IsLeft, IsRight, FineAdd, FineSub, IsInt, IsUInt, lmax, lmin, rmax, rmin, Kind.leftSigned, Kind.rightSigned, intMin,
      intMax, uintMax, nearest, signedClamp, unsignedClamp, clamp] at l8 ⊢
    all_goals (try rw [l8])
    all_goals omega
  · rcases ht with rfl | rfl | rfl | rfl | rfl | rfl | rfl | rfl | rfl | rfl | rfl | rfl | rfl | rfl | rfl | rfl | rfl | rfl
    rotate_left 17
    · have e : o.sub (lmax .unsigned 1) 0 = .ok (lmax .unsigned 1) :=
        (h.sub 1 0 (by simp only [IsLeft]; decide) (by simp only [IsRight]; decide) trivial).trans (by decide)
      exact passes_ok (a := ()) (by simp [saturatingSubZeroFromMax, e])
    all_goals first | refine ad ?_ | refine su ?_
    all_goals exact ⟨by simp only [IsLeft]; decide, by simp only [IsRight]; decide, trivial, by decide⟩

theorem rminPlusOne {k : Kind} {w : Nat} (hw : IsPair k w) :
    toR k w (rmin k w + 1) = rmin k w + 1 ∧ IsRight k w (rmin k w + 1) ∧ IsLeft k w (lmax k w) := by
  rcases hw with hw | ⟨rfl, rfl⟩
  · have h2 : (2 : Int) ^ w = 2 * 2 ^ (w - 1) := two_pow_succ (by omega)
    have h1 : (2 : Int) ^ (w - 1) = 2 * 2 ^ (w - 1 - 1) := two_pow_succ (w := w - 1) (by omega)
    have hp := pow_pos' (w - 1 - 1)
    have hr : IsRight k w (rmin k w + 1) := by
      cases k <;> simp [IsRight, IsInt, IsUInt, rmin, Kind.rightSigned, intMin] <;> omega
    refine ⟨toR_self hw hr, hr, ?_⟩
    cases k <;> simp [IsLeft, IsInt, IsUInt, lmax, Kind.leftSigned, intMax, uintMax] <;> omega
  · exact ⟨by decide, by simp only [IsRight]; decide, by simp only [IsLeft]; decide⟩

theorem zero_rmax {k : Kind} {w : Nat} (hw : IsPair k w) : IsLeft k w 0 ∧ IsRight k w (rmax k w) := by
  rcases hw with hw | ⟨rfl, rfl⟩
  · have h2 : (2 : Int) ^ w = 2 * 2 ^ (w - 1) := two_pow_succ (by omega)
    have hp := pow_pos' (w - 1)
    constructor <;> cases k <;> simp [IsLeft, IsRight, IsInt, IsUInt, rmax, Kind.rightSigned, intMax, uintMax] <;> omega
  · exact ⟨by simp only [IsLeft]; decide, by simp only [IsRight]; decide⟩

/-- What `SaturatingSubMaxFromZero` needs. -/
theorem maxFromZero_pass {o : Ops} {k : Kind} {w : Nat} (hw : IsPair k w)
    (h1 : o.sub 0 (rmax k w) = .ok (nearest k w (0 - rmax k w)))
    (h2 : ∀ a, IsLeft k w a → a ≠ 0 ∨ k ≠ .signed → o.sub a (rmax k w) = .ok (nearest k w (a - rmax k w))) :
    Passes (saturatingSubMaxFromZero o k w) := by
  have hc : IsLeft k w (nearest k w (0 - rmax k w)) ∧ (nearest k w (0 - rmax k w) ≠ 0 ∨ k ≠ .signed) ∧
      lmin k w ≤ nearest k w (0 - rmax k w) ∧ lmin k w = nearest k w (nearest k w (0 - rmax k w) - rmax k w) := by
    rcases hw with hw | ⟨rfl, rfl⟩
    · have h2 : (2 : Int) ^ w = 2 * 2 ^ (w - 1) := two_pow_succ (by omega)
      have h1 : (2 : Int) ^ (w - 1) = 2 * 2 ^ (w - 1 - 1) := two_pow_succ (w := w - 1) (by omega)
      have hp := pow_pos' (w - 1 - 1)
      cases k <;> simp [IsLeft, IsInt, IsUInt, rmax, lmin, Kind.rightSigned, Kind.leftSigned, intMax, intMin, uintMax, nearest,
        signedClamp, unsignedClamp, clamp] <;> omega
    · exact ⟨by simp only [IsLeft]; decide, by decide⟩
  obtain ⟨c1, c2, c3, c4⟩ := hc
  have := (passes_expect (e := lmin k w) (h2 _ c1 c2)).2 c4
  rw [saturatingSubMaxFromZero, h1, lift_ok_bind, decide_eq_true c3, ASSERT_true_bind]
  exact this

/-- The library passes `SaturatingAddMaxMinPlusOne`. -/
theorem library_maxMinPlusOne {abs : Nat → Int → Outcome Int} (habs : abs = strictAbs ∨ abs = wrapAbs) {k : Kind} {w : Nat}
    (hw : IsPair k w) : Passes (saturatingAddMaxMinPlusOne (libraryOps abs k w) k w) := by
  obtain ⟨r1, r2, r3⟩ := rminPlusOne hw
  rw [saturatingAddMaxMinPlusOne, r1]
  have hx := library_exactWhere habs hw
  rcases hw with hw | ⟨rfl, rfl⟩
  · have h2 : (2 : Int) ^ w = 2 * 2 ^ (w - 1) := two_pow_succ (by omega)
    have h1 : (2 : Int) ^ (w - 1) = 2 * 2 ^ (w - 1 - 1) := two_pow_succ (w := w - 1) (by omega)
    have hp := pow_pos' (w - 1 - 1)
    by_cases hk : k = .mixed
    · subst hk
      have hc := castU_neg (w := w) (x := -(2 ^ (w - 1)) + 1) (by omega) (by omega)
      rw [castU] at hc
      have e : (libraryOps abs .mixed w).add (lmax .mixed w) (rmin .mixed w + 1) =
          .ok (unsignedClamp w (2 ^ w - 1 - (-(2 ^ (w - 1)) + 1 + 2 ^ w))) := by
        have er : rmin .mixed w + 1 = -(2 ^ (w - 1)) + 1 := rfl
        have el : lmax .mixed w = 2 ^ w - 1 := rfl
        refine (SatMath.addM_eq (by omega) r3 _).trans ?_
        rw [er, el, if_neg (by omega), hc]
      rw [passes_expect e]
      simp [lmax, Kind.rightSigned, Kind.leftSigned, uintMax, unsignedClamp, clamp]
      omega
    · have hf : FineAdd k w (lmax k w) (rmin k w + 1) := by
        cases k <;> simp [FineAdd, lmax, rmin, Kind.leftSigned, Kind.rightSigned, intMax, intMin] at hk ⊢
        omega
      rw [passes_expect (hx.add _ _ r3 r2 hf)]
      cases k <;> simp [lmax, rmin, Kind.rightSigned, Kind.leftSigned, intMax, intMin, uintMax, nearest,
        signedClamp, unsignedClamp, clamp] at hk ⊢ <;> omega
  · rw [passes_expect (hx.add _ _ r3 r2 trivial)]
    decide

/-! ## C86 -/

/-- C86 (partial), exact operations: they pass all tests but one. That one, `SaturatingAddMaxMinPlusOne`, they pass at a pair of types of
equal signedness, and fail at every pair of an unsigned and a signed type, where the test expects the sum to be two less than it is. -/
theorem C86_exact_partial (k : Kind) (w : Nat) (hw : IsPair k w) (o : Ops) (h : Exact o k w) :
    (∀ t ∈ saturatingSubMaxFromZero :: plainTests, Passes (t o k w)) ∧
    (Passes (saturatingAddMaxMinPlusOne o k w) ↔ k ≠ .mixed) := by
  refine ⟨?_, ?_⟩
  · intro t ht
    rcases List.mem_cons.1 ht with rfl | ht
    · obtain ⟨z1, z2⟩ := zero_rmax hw
      exact maxFromZero_pass hw (h.sub _ _ z1 z2) fun a ha _ => h.sub _ _ ha z2
    · exact plain_pass hw h.where t ht
  · obtain ⟨r1, r2, r3⟩ := rminPlusOne hw
    rw [saturatingAddMaxMinPlusOne, r1, passes_expect (h.add _ _ r3 r2)]
    rcases hw with hw | ⟨rfl, rfl⟩
    · have h2 : (2 : Int) ^ w = 2 * 2 ^ (w - 1) := two_pow_succ (by omega)
      have h1 : (2 : Int) ^ (w - 1) = 2 * 2 ^ (w - 1 - 1) := two_pow_succ (w := w - 1) (by omega)
      have hp := pow_pos' (w - 1 - 1)
      cases k <;> simp [lmax, rmin, Kind.rightSigned, Kind.leftSigned, intMax, intMin, uintMax, nearest,
        signedClamp, unsignedClamp, clamp] <;> omega
    · decide

/-- C86 (partial), the library's operations: at every pair of types they pass all tests but one. That one, `SaturatingSubMaxFromZero`,
they pass at every pair of types but signed ones of 32 bits or more, where it runs into undefined behaviour. -/
theorem C86_library_partial (k : Kind) (w : Nat) (hw : IsPair k w) :
    (∀ t ∈ saturatingAddMaxMinPlusOne :: plainTests, Passes (t (libraryOps strictAbs k w) k w)) ∧
    (¬ (k = .signed ∧ 32 ≤ w) → Passes (saturatingSubMaxFromZero (libraryOps strictAbs k w) k w)) ∧
    (k = .signed ∧ 32 ≤ w → (saturatingSubMaxFromZero (libraryOps strictAbs k w) k w).run = .ub .absOfMin) := by
  refine ⟨?_, ?_, ?_⟩
  · intro t ht
    rcases List.mem_cons.1 ht with rfl | ht
    · exact library_maxMinPlusOne (.inl rfl) hw
    · exact plain_pass hw (library_exactWhere (.inl rfl) hw) t ht
  · intro hn
    obtain ⟨z1, z2⟩ := zero_rmax hw
    have hx := library_exactWhere (.inl rfl) hw
    have hf : ∀ a, FineSub k w a (rmax k w) := by
      intro a
      have hp := pow_pos' (w - 1)
      cases k <;> simp [FineSub, rmax, Kind.rightSigned, intMax] at hn ⊢ <;> omega
    exact maxFromZero_pass hw (hx.sub _ _ z1 z2 (hf 0)) fun a ha _ => hx.sub _ _ ha z2 (hf a)
  · rintro ⟨rfl, h32⟩
    have hp := pow_pos' (w - 1)
    have e : (libraryOps strictAbs .signed w).sub 0 (rmax .signed w) = .ub .absOfMin :=
      SatMath.C02_signed_sub_undefined w h32 _ (by simp only [rmax, Kind.rightSigned, if_true, intMax]; omega)
    rw [saturatingSubMaxFromZero, e, lift_ub_bind]

/-- C86 (partial), the library's operations where `std::abs` wraps: they pass all tests at every pair of types. `SaturatingSubMaxFromZero`
then does not notice that for signed types of 32 bits or more the first difference is one too small, as it only asks it not to be less
than the minimum. -/
theorem C86_library_wrapping_partial (k : Kind) (w : Nat) (hw : IsPair k w) :
    (∀ t ∈ tests, Passes (t (libraryOps wrapAbs k w) k w)) ∧
    (k = .signed → 32 ≤ w → (libraryOps wrapAbs k w).sub 0 (2 ^ (w - 1) - 1) = .ok (-(2 ^ (w - 1)))) := by
  have hsub : k = .signed → 32 ≤ w → (libraryOps wrapAbs k w).sub 0 (2 ^ (w - 1) - 1) = .ok (-(2 ^ (w - 1))) := by
    rintro rfl h32
    have hp := pow_pos' (w - 1)
    show SatMath.subS wrapAbs w 0 (2 ^ (w - 1) - 1) = _
    rw [SatMath.subS, if_pos (by omega), SatMath.subD_zero_wrap h32 (by simp only [InS, intMin, intMax]; omega)]
    rfl
  refine ⟨?_, hsub⟩
  intro t ht
  have hx := library_exactWhere (.inr rfl) hw
  rcases List.mem_cons.1 ht with rfl | ht
  · exact library_maxMinPlusOne (.inr rfl) hw
  rcases List.mem_cons.1 ht with rfl | ht
  · obtain ⟨z1, z2⟩ := zero_rmax hw
    have hp := pow_pos' (w - 1)
    by_cases hk : k = .signed ∧ 32 ≤ w
    · obtain ⟨rfl, h32⟩ := hk
      have e1 : (libraryOps wrapAbs .signed w).sub 0 (rmax .signed w) = .ok (lmin .signed w) := hsub rfl h32
      have h1 : (2 : Int) ^ (w - 1) = 2 * 2 ^ (w - 1 - 1) := two_pow_succ (w := w - 1) (by omega)
      have hl : IsLeft .signed w (lmin .signed w) := by
        simp [IsLeft, IsInt, lmin, Kind.leftSigned, intMin]; omega
      have hf : FineSub .signed w (lmin .signed w) (rmax .signed w) := by
        simp [FineSub, lmin, Kind.leftSigned, intMin]; omega
      rw [saturatingSubMaxFromZero, e1, lift_ok_bind, decide_eq_true (Int.le_refl _), ASSERT_true_bind,
        passes_expect (hx.sub _ _ hl z2 hf)]
      simp [lmin, rmax, Kind.leftSigned, Kind.rightSigned, intMin, intMax, nearest, signedClamp, clamp]
      omega
    · have hf : ∀ a, FineSub k w a (rmax k w) := by
        intro a
        cases k <;> simp [FineSub, rmax, Kind.rightSigned, intMax] at hk ⊢ <;> omega
      exact maxFromZero_pass hw (hx.sub _ _ z1 z2 (hf 0)) fun a ha _ => hx.sub _ _ ha z2 (hf a)
  · exact plain_pass hw hx t ht

/-- C86 is false in both halves: exact operations on `uint32_t` and `int32_t` fail; the library's on `int32_t` have undefined
behaviour. -/
theorem C86_full_statement_fails :
    ¬ C86_Statement ∧ (∀ o, Exact o .mixed 32 → ¬ ∀ t ∈ tests, Passes (t o .mixed 32)) ∧
    ¬ ∀ t ∈ tests, Passes (t (libraryOps strictAbs .signed 32) .signed 32) := by
  have h1 : ∀ o, Exact o .mixed 32 → ¬ ∀ t ∈ tests, Passes (t o .mixed 32) := fun o h hp =>
    (C86_exact_partial .mixed 32 (.inl (by decide)) o h).2.1 (hp _ (by simp [tests])) rfl
  have h2 : ¬ ∀ t ∈ tests, Passes (t (libraryOps strictAbs .signed 32) .signed 32) := by
    intro h
    obtain ⟨u, hu⟩ := h saturatingSubMaxFromZero (by simp [tests])
    rw [(C86_library_partial .signed 32 (.inl (by decide))).2.2 ⟨rfl, by decide⟩] at hu
    cases hu
  exact ⟨fun h => h2 (h .signed 32 (.inl (by decide))).2, h1, h2⟩

/-- Exact operations exist, for every pair of types. -/
def exactOps (k : Kind) (w : Nat) : Ops := ⟨fun a b => .ok (nearest k w (a + b)), fun a b => .ok (nearest k w (a - b))⟩

-- non-vacuous: at `uint32_t` and `int32_t` the test asks for 2147483646 where the sum is 2147483648
example : Exact (exactOps .mixed 32) .mixed 32 ∧ (exactOps .mixed 32).add 4294967295 (-2147483647) = .ok 2147483648 ∧
    (libraryOps strictAbs .mixed 32).add 4294967295 (-2147483647) = .ok 2147483646 ∧
    ¬ Passes (saturatingAddMaxMinPlusOne (exactOps .mixed 32) .mixed 32) ∧
    ∀ t ∈ tests, Passes (t (exactOps .signed 64) .signed 64) := by
  refine ⟨⟨fun _ _ _ _ => rfl, fun _ _ _ _ => rfl⟩, by decide, by decide, ?_, ?_⟩
  · exact fun h => (C86_exact_partial .mixed 32 (.inl (by decide)) _ ⟨fun _ _ _ _ => rfl, fun _ _ _ _ => rfl⟩).2.1 h rfl
  · have := C86_exact_partial .signed 64 (.inl (by decide)) (exactOps .signed 64) ⟨fun _ _ _ _ => rfl, fun _ _ _ _ => rfl⟩
    intro t ht
    rcases List.mem_cons.1 ht with rfl | ht
    · exact this.2.2 (by decide)
    · exact this.1 t ht

end Uavcan.MathTest
