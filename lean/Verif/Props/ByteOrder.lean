import Verif.Spec.ByteOrder

/-!
# C132: bytes can be reversed with every compiler
-/

namespace Uavcan.ByteOrder
open Spec

/-- A list can be split in one way only at the last of the operators that bind least. -/
theorem split_unique {a b r s : List (Op × BitVec 32)} {p q : Op × BitVec 32} (h : a ++ p :: r = b ++ q :: s)
    (ha : ∀ x ∈ a, tightness p.1 ≤ tightness x.1) (hr : ∀ x ∈ r, tightness p.1 < tightness x.1)
    (hb : ∀ x ∈ b, tightness q.1 ≤ tightness x.1) (hs : ∀ x ∈ s, tightness q.1 < tightness x.1) : a = b ∧ p = q ∧ r = s := by
  rcases List.append_eq_append_iff.1 h with ⟨c, h1, h2⟩ | ⟨c, h1, h2⟩
  · cases c with
    | nil => simp at h1 h2; exact ⟨h1.symm, h2.1, h2.2⟩
    | cons x c =>
      simp only [List.cons_append, List.cons.injEq] at h2
      obtain ⟨rfl, rfl⟩ := h2
      have := hr q (by simp)
      have := hb p (by rw [h1]; simp)
      omega
  · cases c with
    | nil => simp at h1 h2; exact ⟨h1, h2.1.symm, h2.2.symm⟩
    | cons x c =>
      simp only [List.cons_append, List.cons.injEq] at h2
      obtain ⟨rfl, rfl⟩ := h2
      have := hs p (by simp)
      have := ha q (by rw [h1]; simp)
      omega

/-- A text has one value. -/
theorem means_unique {a : Text} {v w : BitVec 32} (h : Means a v) (h' : Means a w) : v = w := by
  induction h generalizing w with
  | operand x =>
    generalize ht : (⟨x, []⟩ : Text) = t at h'
    cases h' with
    | operand y => cases ht; rfl
    | split => simp at ht
  | @split a op y r v1 v2 ha hr _ _ ih1 ih2 =>
    generalize ht : (⟨a.first, a.rest ++ (op, y) :: r⟩ : Text) = t at h'
    cases h' with
    | operand y => simp at ht
    | @split b op' y' r' w1 w2 hb hs h1 h2 =>
      obtain ⟨a1, a2⟩ := a
      obtain ⟨b1, b2⟩ := b
      simp only [Text.mk.injEq] at ht
      obtain ⟨rfl, hx⟩ := ht
      obtain ⟨rfl, e, rfl⟩ := split_unique hx ha hr hb hs
      cases e
      rw [ih1 h1, ih2 h2]

/-- Of the operators of a list, the last of those that bind least. -/
theorem split_exists : ∀ l : List (Op × BitVec 32), l ≠ [] → ∃ a p r, l = a ++ p :: r ∧ (∀ x ∈ a, tightness p.1 ≤ tightness x.1) ∧ (∀ x ∈ r, tightness p.1 < tightness x.1) := by
  intro l
  induction l with
  | nil => intro h; exact absurd rfl h
  | cons x l ih =>
    intro _
    by_cases hl : l = []
    · subst hl; exact ⟨[], x, [], rfl, by simp, by simp⟩
    · obtain ⟨a, p, r, h1, h2, h3⟩ := ih hl
      by_cases hx : tightness p.1 ≤ tightness x.1
      · refine ⟨x :: a, p, r, by rw [h1]; rfl, ?_, h3⟩
        intro y hy
        rcases List.mem_cons.1 hy with rfl | hy
        · exact hx
        · exact h2 y hy
      · refine ⟨[], x, l, rfl, by simp, ?_⟩
        intro y hy
        rw [h1] at hy
        rcases List.mem_append.1 hy with hy | hy
        · have := h2 y hy; omega
        · rcases List.mem_cons.1 hy with rfl | hy
          · omega
          · have := h3 y hy; omega

/-- Every text has a value. -/
theorem means_total (a : Text) : ∃ v, Means a v := by
  obtain ⟨x, l⟩ := a
  induction hn : l.length using Nat.strongRecOn generalizing x l with
  | ind n ih =>
    by_cases hl : l = []
    · subst hl; exact ⟨x, .operand x⟩
    · obtain ⟨a, p, r, h1, h2, h3⟩ := split_exists l hl
      have hlen : l.length = a.length + (r.length + 1) := by rw [h1]; simp
      obtain ⟨v, hv⟩ := ih a.length (by omega) x a rfl
      obtain ⟨w, hw⟩ := ih r.length (by omega) p.2 r rfl
      subst h1
      exact ⟨_, Means.split (a := ⟨x, a⟩) (op := p.1) (y := p.2) h2 h3 hv hw⟩

theorem yields_unique {f : BitVec 32 → BitVec 32} {a : Text} {m : Macro} {v w : BitVec 32} (h : Yields f a m v) (h' : Yields f a m w) : v = w := by
  induction h generalizing w with
  | instruction h => cases h' with | instruction h' => rw [means_unique h h']
  | expression h _ ih => cases h' with | expression h' h2 => rw [means_unique h h', ih h2]
  | nothing => cases h'; rfl

/-- The argument of `&` is the whole text if all its operators bind at least as tightly. -/
theorem means_band {a : Text} {v : BitVec 32} (h : Means a v) (ht : ∀ p ∈ a.rest, tightness .band ≤ tightness p.1) (m : BitVec 32) : Means (a.then .band m) (v &&& m) :=
  Means.split (op := .band) ht (by simp) h (.operand m)

/-- The four parts of `REV_BYTES_32`, joined. -/
def join32 (p q r s : BitVec 32) : BitVec 32 := compute .shr p 24 ||| (compute .shr q 8 ||| (compute .shl r 8 ||| (compute .shl s 24 ||| 0)))

/-- The four parts of `REV_BYTES_16`, joined. -/
def join16 (p q r s : BitVec 32) : BitVec 32 := compute .shr p 8 ||| (compute .shl q 8 ||| (compute .shr r 8 ||| (compute .shl s 8 ||| 0)))

theorem joined32 (v : BitVec 32) : Reversed v (join32 (v &&& 0xFF000000) (v &&& 0xFF0000) (v &&& 0xFF00) (v &&& 0xFF)) := by
  intro k hk
  apply BitVec.eq_of_getLsbD_eq
  intro j hj
  match k, hk with
  | 0, _ | 1, _ | 2, _ | 3, _ =>
    match j, hj with
    | 0, _ | 1, _ | 2, _ | 3, _ | 4, _ | 5, _ | 6, _ | 7, _ => simp [byte, join32, compute]

theorem joined16 (v : BitVec 32) : HalvesReversed v (join16 (v &&& 0xFF000000) (v &&& 0xFF0000) (v &&& 0xFF00) (v &&& 0xFF)) := by
  refine ⟨?_, ?_, ?_, ?_⟩
  all_goals
    apply BitVec.eq_of_getLsbD_eq
    intro j hj
    match j, hj with
    | 0, _ | 1, _ | 2, _ | 3, _ | 4, _ | 5, _ | 6, _ | 7, _ => simp [byte, join16, compute]

/-- What the expression computes. -/
theorem yields32 {f : BitVec 32 → BitVec 32} {a : Text} {p q r s w : BitVec 32} (h : Yields f a (revBytes32 false false false) w)
    (hp : Means (a.then .band 0xFF000000) p) (hq : Means (a.then .band 0xFF0000) q) (hr : Means (a.then .band 0xFF00) r) (hs : Means (a.then .band 0xFF) s) :
    w = join32 p q r s := yields_unique h (.expression hp (.expression hq (.expression hr (.expression hs .nothing))))

theorem yields16 {f : BitVec 32 → BitVec 32} {a : Text} {p q r s w : BitVec 32} (h : Yields f a (revBytes16 false false false) w)
    (hp : Means (a.then .band 0xFF000000) p) (hq : Means (a.then .band 0xFF0000) q) (hr : Means (a.then .band 0xFF00) r) (hs : Means (a.then .band 0xFF) s) :
    w = join16 p q r s := yields_unique h (.expression hp (.expression hq (.expression hr (.expression hs .nothing))))

/-- The property as stated in `properties.jsonl`. -/
def C132_Statement : Prop :=
  ∀ (gnu iar ghs : Bool) (a : Text) (v : BitVec 32), Means a v →
    (∀ (f : BitVec 32 → BitVec 32) (w : BitVec 32), (∀ x, Reversed x (f x)) → Yields f a (revBytes32 gnu iar ghs) w → Reversed v w) ∧
    (∀ (f : BitVec 32 → BitVec 32) (w : BitVec 32), (∀ x, HalvesReversed x (f x)) → Yields f a (revBytes16 gnu iar ghs) w → HalvesReversed v w)

/-- C132, partial: bytes are reversed by compilers that use the instruction, and by all others if all operators of the argument bind at least as tightly as `&`. Missing: other
arguments. -/
theorem C132_reversed_partial (gnu iar ghs : Bool) (a : Text) (v : BitVec 32) (hv : Means a v)
    (ht : (gnu || iar || ghs) = true ∨ ∀ p ∈ a.rest, tightness .band ≤ tightness p.1) :
    (∀ (f : BitVec 32 → BitVec 32) (w : BitVec 32), (∀ x, Reversed x (f x)) → Yields f a (revBytes32 gnu iar ghs) w → Reversed v w) ∧
    (∀ (f : BitVec 32 → BitVec 32) (w : BitVec 32), (∀ x, HalvesReversed x (f x)) → Yields f a (revBytes16 gnu iar ghs) w → HalvesReversed v w) := by
  cases hc : (gnu || iar || ghs) with
  | true =>
    refine ⟨fun f w hf h => ?_, fun f w hf h => ?_⟩
    · rw [revBytes32, if_pos hc] at h
      cases h with | instruction h => rw [means_unique hv h]; exact hf _
    · rw [revBytes16, if_pos hc] at h
      cases h with | instruction h => rw [means_unique hv h]; exact hf _
  | false =>
    simp only [Bool.or_eq_false_iff] at hc
    obtain ⟨⟨rfl, rfl⟩, rfl⟩ := hc
    have ht := ht.resolve_left (by simp)
    have hm := means_band hv ht
    refine ⟨fun f w _ h => ?_, fun f w _ h => ?_⟩
    · rw [yields32 h (hm _) (hm _) (hm _) (hm _)]; exact joined32 v
    · rw [yields16 h (hm _) (hm _) (hm _) (hm _)]; exact joined16 v

/-- C132, partial: and they always compute something, exactly one value. -/
theorem C132_one_value_partial (f : BitVec 32 → BitVec 32) (gnu iar ghs : Bool) (a : Text) :
    (∃ w, Yields f a (revBytes32 gnu iar ghs) w ∧ ∀ w', Yields f a (revBytes32 gnu iar ghs) w' → w' = w) ∧
    (∃ w, Yields f a (revBytes16 gnu iar ghs) w ∧ ∀ w', Yields f a (revBytes16 gnu iar ghs) w' → w' = w) := by
  have key : ∀ m, ∃ w, Yields f a m w ∧ ∀ w', Yields f a m w' → w' = w := by
    intro m
    have : ∃ w, Yields f a m w := by
      cases m with
      | instruction => obtain ⟨v, hv⟩ := means_total a; exact ⟨_, .instruction hv⟩
      | expression ps =>
        induction ps with
        | nil => exact ⟨_, .nothing⟩
        | cons p ps ih =>
          obtain ⟨w, hw⟩ := ih
          obtain ⟨v, hv⟩ := means_total (a.then .band p.1)
          exact ⟨_, .expression hv hw⟩
    obtain ⟨w, hw⟩ := this
    exact ⟨w, hw, fun w' h => yields_unique h hw⟩
  exact ⟨key _, key _⟩

/-- A loose operator takes the mask with its right operand. -/
theorem means_loose {op : Op} (h : tightness op < tightness .band) (x y m : BitVec 32) : Means ((⟨x, [(op, y)]⟩ : Text).then .band m) (compute op x (y &&& m)) :=
  Means.split (a := ⟨x, []⟩) (op := op) (y := y) (r := [(.band, m)]) (by simp) (by simpa using h) (.operand x)
    (Means.split (a := ⟨y, []⟩) (op := .band) (y := m) (r := []) (by simp) (by simp) (.operand y) (.operand m))

theorem means_two (op : Op) (x y : BitVec 32) : Means ⟨x, [(op, y)]⟩ (compute op x y) :=
  Means.split (a := ⟨x, []⟩) (op := op) (y := y) (r := []) (by simp) (by simp) (.operand x) (.operand y)

/-- C132, partial: the exact condition for arguments of two operands, with a compiler that does not use the instruction: bytes are reversed for all values if and only if the operator
binds at least as tightly as `&`. -/
theorem C132_iff_partial (op : Op) :
    ((∀ (f : BitVec 32 → BitVec 32) (x y v w : BitVec 32), Means ⟨x, [(op, y)]⟩ v → Yields f ⟨x, [(op, y)]⟩ (revBytes32 false false false) w → Reversed v w) ↔
      tightness .band ≤ tightness op) ∧
    ((∀ (f : BitVec 32 → BitVec 32) (x y v w : BitVec 32), Means ⟨x, [(op, y)]⟩ v → Yields f ⟨x, [(op, y)]⟩ (revBytes16 false false false) w → HalvesReversed v w) ↔
      tightness .band ≤ tightness op) := by
  refine ⟨⟨fun h => ?_, fun ht f x y v w hv hw => ?_⟩, ⟨fun h => ?_, fun ht f x y v w hv hw => ?_⟩⟩
  · refine Classical.byContradiction fun hn => ?_
    have hl : tightness op < tightness .band := by omega
    have key : ∀ x y, Reversed (compute op x y) (join32 (compute op x (y &&& 0xFF000000)) (compute op x (y &&& 0xFF0000)) (compute op x (y &&& 0xFF00))
        (compute op x (y &&& 0xFF))) := fun x y =>
      h id x y _ _ (means_two op x y) (.expression (means_loose hl x y _) (.expression (means_loose hl x y _) (.expression (means_loose hl x y _)
        (.expression (means_loose hl x y _) .nothing))))
    cases op with
    | bor => exact absurd (key 1 0 1 (by decide)) (by decide)
    | bxor => exact absurd (key 1 0 1 (by decide)) (by decide)
    | land => exact absurd (key 1 0x100 1 (by decide)) (by decide)
    | lor => exact absurd (key 1 0 1 (by decide)) (by decide)
    | _ => exact absurd hl (by decide)
  · have hm := means_band hv (by simpa using ht)
    rw [yields32 hw (hm _) (hm _) (hm _) (hm _)]; exact joined32 v
  · refine Classical.byContradiction fun hn => ?_
    have hl : tightness op < tightness .band := by omega
    have key : ∀ x y, HalvesReversed (compute op x y) (join16 (compute op x (y &&& 0xFF000000)) (compute op x (y &&& 0xFF0000)) (compute op x (y &&& 0xFF00))
        (compute op x (y &&& 0xFF))) := fun x y =>
      h id x y _ _ (means_two op x y) (.expression (means_loose hl x y _) (.expression (means_loose hl x y _) (.expression (means_loose hl x y _)
        (.expression (means_loose hl x y _) .nothing))))
    cases op with
    | bor => exact absurd (key 0x100 0).2.2.1 (by decide)
    | bxor => exact absurd (key 0x100 0).2.2.1 (by decide)
    | land => exact absurd (key 1 0x100).2.1 (by decide)
    | lor => exact absurd (key 0 0x100).2.1 (by decide)
    | _ => exact absurd hl (by decide)
  · have hm := means_band hv (by simpa using ht)
    rw [yields16 hw (hm _) (hm _) (hm _) (hm _)]; exact joined16 v

/-- C132 is false of the code: `REV_BYTES_32(x | y, z)` with a compiler that does not use the instruction. -/
theorem C132_full_statement_fails : ¬ C132_Statement := by
  intro h
  have h1 := (C132_iff_partial .bor).1.1 fun f x y v w hv hw => by
    refine (h false false false _ v hv).1 (fun v => join32 (v &&& 0xFF000000) (v &&& 0xFF0000) (v &&& 0xFF00) (v &&& 0xFF)) w joined32 ?_
    cases hw with
    | expression a hw => cases hw with
      | expression b hw => cases hw with
        | expression c hw => cases hw with
          | expression d hw =>
            cases hw
            exact .expression a (.expression b (.expression c (.expression d .nothing)))
  exact absurd h1 (by decide)

/-- `REV_BYTES_32(0x1234 + 0x10 & 0xFFFF, z)`: all operators bind tightly enough. -/
example : ∃ v w, Means ⟨0x1234, [(.add, 0x10), (.band, 0xFFFF)]⟩ v ∧ Yields id ⟨0x1234, [(.add, 0x10), (.band, 0xFFFF)]⟩ (revBytes32 false false false) w ∧ v = 0x1244 ∧ w = 0x44120000 := by
  have hv : Means ⟨0x1234, [(.add, 0x10), (.band, 0xFFFF)]⟩ ((0x1234 + 0x10) &&& 0xFFFF) :=
    Means.split (a := ⟨0x1234, [(.add, 0x10)]⟩) (op := .band) (y := 0xFFFF) (r := []) (by decide) (by simp) (means_two .add _ _) (.operand _)
  have hm := means_band hv (by decide)
  exact ⟨_, _, hv, .expression (hm _) (.expression (hm _) (.expression (hm _) (.expression (hm _) .nothing))), by decide, by decide⟩

end Uavcan.ByteOrder
