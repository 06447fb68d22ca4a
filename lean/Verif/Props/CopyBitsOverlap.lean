import Verif.Lemmas.CopyBitsOverlap
import Verif.Props.CopyBits

/-!
# Bit copies within one array (C102)
-/

namespace Uavcan.CopyBits
open Spec

/-- The bytes of the array from index `p` to its end. -/
def view (n p : Nat) (a : Arr) : List Byte := (List.range (n - p)).map fun i => a (p + i)

theorem view_length (n p : Nat) (a : Arr) : (view n p a).length = n - p := by simp [view]

theorem view_getD {n p j : Nat} (a : Arr) (h : p + j < n) : (view n p a).getD j 0 = a (p + j) := by
  have hl : j < (view n p a).length := by rw [view_length]; omega
  rw [List.getD_eq_getElem?_getD, List.getElem?_eq_getElem hl]
  simp [view]

/-- `copyBitsUnalignedToAligned` from index `sp` to index `dp` of one array does what it does when the source is a separate
copy: same count, same bytes everywhere, for all contents of every array that contains the bytes accessed. -/
def UASame (sp dp off len : Nat) : Prop :=
  ∀ (n : Nat) (a : Arr), n < 2 ^ 61 → (∀ j, Touched off len j → sp + j < n ∧ dp + j < n) →
    ∃ k dst' a', copyBitsUnalignedToAligned (some (view n sp a)) off (some (view n dp a)) len = .ok (k, some dst') ∧
      copyBitsUnalignedToAlignedA n sp dp off len a = .ok (k, a') ∧
      ∀ x, x < n → a' x = if dp ≤ x then dst'.getD (x - dp) 0 else a x

/-- The same for `copyBitsAlignedToUnaligned`. -/
def AUSame (sp dp off len : Nat) : Prop :=
  ∀ (n : Nat) (a : Arr), n < 2 ^ 61 → (∀ j, Touched off len j → sp + j < n ∧ dp + j < n) →
    ∃ k dst' a', copyBitsAlignedToUnaligned (some (view n sp a)) (some (view n dp a)) off len = .ok (k, some dst') ∧
      copyBitsAlignedToUnalignedA n sp dp off len a = .ok (k, a') ∧
      ∀ x, x < n → a' x = if dp ≤ x then dst'.getD (x - dp) 0 else a x

/-- The property as stated in `properties.jsonl`. -/
def C102_Statement : Prop := ∀ sp dp off len, UASame sp dp off len ∧ AUSame sp dp off len

/-- What the loops on separate buffers give, for the views of one array. -/
theorem ua_sep {n sp dp off len : Nat} (a : Arr) (hlen : 0 < len) (hn : n < 2 ^ 61)
    (ht : ∀ j, Touched off len j → sp + j < n ∧ dp + j < n) :
    ∃ dst', copyBitsUnalignedToAligned (some (view n sp a)) off (some (view n dp a)) len =
        .ok (count off len, some dst') ∧
      ∀ j, dp + j < n → dst'.getD j 0 =
        if j = off / 8 then uaByte (off % 8) (a (dp + j)) (a (sp + j))
        else if off / 8 < j ∧ 8 * j + off % 8 < len then
          uaByte (off % 8) (shl (a (sp + j)) (8 - off % 8)) (a (sp + j))
        else a (dp + j) := by
  obtain ⟨dst', e1, -, e3⟩ := uaLoop_ok (src := view n sp a) (dst := view n dp a) (lo := off % 8) (len := len) (off := off)
    (c := 0) rfl
    (by intro j hj; have := ht j hj; rw [view_length, view_length]; omega) (by rw [view_length]; omega)
  refine ⟨dst', ?_, ?_⟩
  · simp only [copyBitsUnalignedToAligned]
    rw [if_neg (by omega), e1]
    simp
  · intro j hj
    rw [e3 j, view_getD a hj]
    by_cases h1 : j = off / 8
    · rw [if_pos h1, if_pos h1, view_getD a (ht j (.inl h1)).1]
    · rw [if_neg h1, if_neg h1]
      by_cases h2 : off / 8 < j ∧ 8 * j + off % 8 < len
      · rw [if_pos h2, if_pos h2, view_getD a (ht j (.inr h2)).1]
      · rw [if_neg h2, if_neg h2]

theorem au_sep {n sp dp off len : Nat} (a : Arr) (hlen : 0 < len) (hn : n < 2 ^ 61)
    (ht : ∀ j, Touched off len j → sp + j < n ∧ dp + j < n) :
    ∃ dst', copyBitsAlignedToUnaligned (some (view n sp a)) (some (view n dp a)) off len =
        .ok (count off len, some dst') ∧
      ∀ j, dp + j < n → dst'.getD j 0 =
        if j = off / 8 ∨ (off / 8 < j ∧ 8 * j + off % 8 < len) then
          auByte (off % 8) (a (dp + j)) (a (sp + j)) |||
            (if 8 * (j + 1) + off % 8 < len then shr (a (sp + (j + 1))) (8 - off % 8) else 0)
        else a (dp + j) := by
  obtain ⟨dst', e1, -, e3⟩ := auLoop_ok (src := view n sp a) (dst := view n dp a) (lo := off % 8) (len := len) (off := off)
    (c := 0) rfl
    (by intro j hj; have := ht j hj; rw [view_length, view_length]; omega) (by rw [view_length]; omega)
  refine ⟨dst', ?_, ?_⟩
  · simp only [copyBitsAlignedToUnaligned]
    rw [if_neg (by omega), e1]
    simp
  · intro j hj
    rw [e3 j, view_getD a hj]
    by_cases h1 : j = off / 8 ∨ (off / 8 < j ∧ 8 * j + off % 8 < len)
    · rw [if_pos h1, if_pos h1, view_getD a (ht j h1).1]
      by_cases h2 : 8 * (j + 1) + off % 8 < len
      · rw [if_pos h2, if_pos h2, view_getD a (ht (j + 1) (.inr ⟨by omega, h2⟩)).1]
      · rw [if_neg h2, if_neg h2]
    · rw [if_neg h1, if_neg h1]

/-- An array just large enough. -/
theorem room {sp dp off len : Nat} (hbig : sp + dp + off + len < 2 ^ 60) :
    sp + dp + off + len + 1 < 2 ^ 61 ∧
    ∀ j, Touched off len j → sp + j < sp + dp + off + len + 1 ∧ dp + j < sp + dp + off + len + 1 := by
  refine ⟨by omega, ?_⟩
  intro j hj
  simp only [Touched] at hj; omega

theorem shr_zero (k : Nat) : shr 0 k = 0 := by simp [shr]

theorem key1 : ∀ lo, lo < 8 → uaByte lo (shl (uaByte lo 0 0xFF) (8 - lo)) (uaByte lo 0 0xFF) =
    uaByte lo (shl 0 (8 - lo)) 0 → False := by decide

theorem key2 : ∀ lo, lo < 8 → (shl 0x80 (8 - lo) &&& shl 0xFF (8 - lo)) ||| shr (shl 0x80 (8 - lo) &&& shl 0xFF (8 - lo)) lo =
    uaByte lo (shl 0x80 (8 - lo)) 0x80 → False := by decide

theorem key3 : ∀ lo, lo < 4 → (0xFF &&& shl 0xFF (8 - lo)) ||| shr (0xFF &&& shl 0xFF (8 - lo)) lo =
    uaByte lo 0xFF 0xFF → False := by decide

theorem key4 : ∀ lo, lo < 8 → 4 ≤ lo → auByte lo 0 0xFF ||| shr (auByte lo 0 0xFF) (8 - lo) =
    auByte lo 0 0xFF ||| shr 0 (8 - lo) → False := by decide

theorem key5 : ∀ lo, lo < 4 → (0xFF &&& shr 0xFF (8 - lo)) ||| shl (0xFF &&& shr 0xFF (8 - lo)) lo ||| shr 0xFF (8 - lo) =
    auByte lo 0xFF 0xFF ||| shr 0xFF (8 - lo) → False := by decide

theorem key6 : ∀ lo, lo < 4 → (0xFF &&& shr 0xFF (8 - lo)) ||| shl (0xFF &&& shr 0xFF (8 - lo)) lo =
    auByte lo 0xFF 0xFF ||| 0 → False := by decide

/-- C102, partial: exactly when the source and the destination of `copyBitsUnalignedToAligned` may overlap: if the destination
starts before the source, or begins after the last byte read, or both start at the same byte, at least four bits are
skipped and only one byte is accessed. Missing: every other overlap. -/
theorem C102_unaligned_iff_partial (sp dp off len : Nat) (hlen : 0 < len) (hbig : sp + dp + off + len < 2 ^ 60) :
    UASame sp dp off len ↔
      dp < sp ∨ ¬ Touched off len (off / 8 + (dp - sp)) ∨
        (dp = sp ∧ 4 ≤ off % 8 ∧ ¬ Touched off len (off / 8 + 1)) := by
  constructor
  · intro h
    apply Classical.byContradiction
    intro hc
    have hle : sp ≤ dp := Nat.le_of_not_lt fun h => hc (.inl h)
    have htd : Touched off len (off / 8 + (dp - sp)) := Classical.byContradiction fun h => hc (.inr (.inl h))
    have hip : dp = sp → off % 8 < 4 ∨ Touched off len (off / 8 + 1) := by
      intro he
      apply Classical.byContradiction
      intro hn
      exact hc (.inr (.inr ⟨he, by omega, fun ht => hn (.inr ht)⟩))
    obtain ⟨hn, hroom⟩ := room hbig
    have hlo8 : off % 8 < 8 := by omega
    rcases Nat.lt_or_eq_of_le hle with hlt | rfl
    · -- the destination begins inside the source
      obtain ⟨k, hk⟩ : ∃ k, dp = sp + (k + 1) := ⟨dp - sp - 1, by omega⟩
      subst hk
      rw [show sp + (k + 1) - sp = k + 1 by omega] at htd
      obtain ⟨m, dst', a', e1, e2, e3⟩ := h _ (upd (fun _ => 0) (sp + off / 8) 0xFF) hn hroom
      obtain ⟨dst2, f1, f2⟩ := ua_sep (upd (fun _ => 0) (sp + off / 8) 0xFF) hlen hn hroom
      rw [f1] at e1
      simp only [Outcome.ok.injEq, Prod.mk.injEq, Option.some.injEq] at e1
      obtain ⟨-, rfl⟩ := e1
      have hb := (hroom _ htd).2
      have e4 := e3 (sp + (k + 1) + (off / 8 + (k + 1))) hb
      rw [if_pos (by omega), Nat.add_sub_cancel_left, f2 _ hb, if_neg (by omega), if_pos (by simp only [Touched] at htd; omega),
        upd_other _ _ (by omega)] at e4
      simp only [copyBitsUnalignedToAlignedA] at e2
      rw [if_neg (by omega)] at e2
      obtain ⟨c', b, g1, g2, g3⟩ := uaLoopA_skip (c := 0) (lo := off % 8) (upd (fun _ => 0) (sp + off / 8) 0xFF)
        (show sp ≠ sp + (k + 1) by omega) hroom hn k htd
      rw [g1, uaLoopA_step _ (fun j hj => hroom j (by simp only [Touched] at *; omega)) hn] at e2
      have hdiv : (off + 8 * (k + 1)) / 8 = off / 8 + (k + 1) := by omega
      have hval : a' (sp + (k + 1) + (off / 8 + (k + 1))) =
          uaBody sp (sp + (k + 1)) (off % 8) (off / 8 + (k + 1)) b (sp + (k + 1) + (off / 8 + (k + 1))) := by
        rw [hdiv] at e2
        split at e2
        · obtain ⟨a2, p1, p2⟩ := uaLoopA_frame (c := c' + min len (8 - off % 8) + off % 8) (off := off + 8 * (k + 1) + 8)
            (lo := off % 8) (sp := sp) (dp := sp + (k + 1)) (n := sp + (sp + (k + 1)) + off + len + 1) (len := len)
            (uaNext sp (sp + (k + 1)) (off % 8) (off / 8 + (k + 1) + 1)
              (uaBody sp (sp + (k + 1)) (off % 8) (off / 8 + (k + 1)) b)) (by omega)
            (fun j hj => hroom j (by simp only [Touched] at *; omega)) hn
          rw [p1] at e2
          simp only [Outcome.ok.injEq, Prod.mk.injEq] at e2
          rw [← e2.2, p2 _ (by omega), uaNext, upd_other _ _ (by omega)]
        · simp only [Outcome.ok.injEq, Prod.mk.injEq] at e2
          rw [← e2.2]
      rw [hval, uaBody_same _ (by omega), g3] at e4
      have hsrc : b (sp + (off / 8 + (k + 1))) = uaByte (off % 8) 0 0xFF := by
        have : sp + (off / 8 + (k + 1)) = sp + (k + 1) + off / 8 := by omega
        rw [this, g2 _ (Nat.le_refl _), uaBody_same _ (by omega), upd_same, upd_other _ _ (by omega)]
      rw [hsrc] at e4
      exact key1 _ hlo8 e4
    · -- the same byte
      obtain ⟨m, dst', a', e1, e2, e3⟩ := h _ (fun x => if x = sp + off / 8 then 0xFF else 0x80) hn hroom
      obtain ⟨dst2, f1, f2⟩ := ua_sep (fun x => if x = sp + off / 8 then 0xFF else 0x80) hlen hn hroom
      rw [f1] at e1
      simp only [Outcome.ok.injEq, Prod.mk.injEq, Option.some.injEq] at e1
      obtain ⟨-, rfl⟩ := e1
      simp only [copyBitsUnalignedToAlignedA] at e2
      rw [if_neg (by omega), uaLoopA_step _ hroom hn] at e2
      by_cases h2 : off + 8 < len
      · have ht1 : Touched off len (off / 8 + 1) := .inr ⟨by omega, by omega⟩
        have hb := (hroom _ ht1).2
        have e4 := e3 _ hb
        rw [if_pos (by omega), Nat.add_sub_cancel_left, f2 _ hb, if_neg (by omega), if_pos (by simp only [Touched] at ht1; omega),
          if_neg (by omega)] at e4
        rw [if_pos h2, uaLoopA_step _ (fun j hj => hroom j (touched_next h2 hj)) hn] at e2
        have hdiv : (off + 8) / 8 = off / 8 + 1 := by omega
        rw [hdiv] at e2
        have hval : a' (sp + (off / 8 + 1)) = uaBody sp sp (off % 8) (off / 8 + 1)
            (uaNext sp sp (off % 8) (off / 8 + 1)
              (uaBody sp sp (off % 8) (off / 8) (fun x => if x = sp + off / 8 then 0xFF else 0x80)))
            (sp + (off / 8 + 1)) := by
          split at e2
          · obtain ⟨a2, p1, p2⟩ := uaLoopA_frame
              (c := 0 + min len (8 - off % 8) + off % 8 + min len (8 - off % 8) + off % 8) (off := off + 8 + 8)
              (lo := off % 8) (sp := sp) (dp := sp) (n := sp + sp + off + len + 1) (len := len)
              (uaNext sp sp (off % 8) (off / 8 + 1 + 1) (uaBody sp sp (off % 8) (off / 8 + 1)
                (uaNext sp sp (off % 8) (off / 8 + 1)
                  (uaBody sp sp (off % 8) (off / 8) (fun x => if x = sp + off / 8 then 0xFF else 0x80))))) (by omega)
              (fun j hj => hroom j (by simp only [Touched] at *; omega)) hn
            rw [p1] at e2
            simp only [Outcome.ok.injEq, Prod.mk.injEq] at e2
            rw [← e2.2, p2 _ (by omega), uaNext, upd_other _ _ (by omega)]
          · simp only [Outcome.ok.injEq, Prod.mk.injEq] at e2
            rw [← e2.2]
        rw [hval, uaBody_inplace, uaNext, upd_same, uaBody_other _ (by omega), if_neg (by omega)] at e4
        exact key2 _ hlo8 e4
      · rw [if_neg h2] at e2
        simp only [Outcome.ok.injEq, Prod.mk.injEq] at e2
        have ht0 : Touched off len (off / 8) := .inl rfl
        have hb := (hroom _ ht0).2
        have e4 := e3 _ hb
        rw [if_pos (by omega), Nat.add_sub_cancel_left, f2 _ hb, if_pos rfl, ← e2.2, uaBody_inplace, if_pos rfl] at e4
        have hlo4 : off % 8 < 4 := by
          rcases hip rfl with h | h
          · exact h
          · simp only [Touched] at h; omega
        exact key3 _ hlo4 e4
  · intro hz n a hn ht
    obtain ⟨dst2, f1, f2⟩ := ua_sep a hlen hn ht
    have hfin : ∀ a' : Arr, (∀ x, a' x =
        if x = dp + off / 8 then uaByte (off % 8) (a x) (a (sp + off / 8))
        else if dp + off / 8 < x ∧ 8 * (x - dp) + off % 8 < len then
          uaByte (off % 8) (shl (a (sp + (x - dp))) (8 - off % 8)) (a (sp + (x - dp)))
        else a x) → ∀ x, x < n → a' x = if dp ≤ x then dst2.getD (x - dp) 0 else a x := by
      intro a' ha x hx
      rw [ha x]
      by_cases hd : dp ≤ x
      · rw [if_pos hd, f2 (x - dp) (by omega), show dp + (x - dp) = x by omega]
        by_cases h1 : x = dp + off / 8
        · rw [if_pos h1, if_pos (by omega), show sp + (x - dp) = sp + off / 8 by omega]
        · rw [if_neg h1, if_neg (show ¬ x - dp = off / 8 by omega)]
          by_cases h2 : dp + off / 8 < x ∧ 8 * (x - dp) + off % 8 < len
          · rw [if_pos h2, if_pos (by omega)]
          · rw [if_neg h2, if_neg (by omega)]
      · rw [if_neg hd, if_neg (by omega), if_neg (by omega)]
    have hz2 : (dp < sp ∨ ¬ Touched off len (off / 8 + (dp - sp))) ∨
        (dp = sp ∧ 4 ≤ off % 8 ∧ ¬ Touched off len (off / 8 + 1)) := by
      rcases hz with h | h | h
      · exact .inl (.inl h)
      · exact .inl (.inr h)
      · exact .inr h
    rcases hz2 with hz | ⟨rfl, h4, h1⟩
    · obtain ⟨a', g1, g2⟩ := uaLoopA_ok (c := 0) a rfl ht hn hz
      refine ⟨_, dst2, a', f1, ?_, hfin a' g2⟩
      rw [copyBitsUnalignedToAlignedA, if_neg (by omega), g1, Nat.zero_add]
    · have h2 : ¬ off + 8 < len := fun h => h1 (.inr ⟨by omega, by omega⟩)
      refine ⟨_, dst2, uaBody dp dp (off % 8) (off / 8) a, f1, ?_, hfin _ ?_⟩
      · rw [copyBitsUnalignedToAlignedA, if_neg (by omega), uaLoopA_step a ht hn, if_neg h2, count_last (by omega),
          Nat.zero_add]
      · intro x
        by_cases hx : x = dp + off / 8
        · subst hx
          rw [if_pos rfl, uaBody_inplace]
          have hb : ∀ lo, lo < 8 → 4 ≤ lo → ∀ y : Byte,
              (y &&& shl 0xFF (8 - lo)) ||| shr (y &&& shl 0xFF (8 - lo)) lo = uaByte lo y y := by
            intro lo h8 h4 y
            apply byte_ext
            intro i hi
            simp only [uaByte, BitVec.getLsbD_or, BitVec.getLsbD_and, shl_getLsbD _ (8 - lo) _ (by omega), shr_getLsbD,
              ff_getLsbD]
            by_cases h7 : lo + i < 8
            · have e1 : 8 - lo ≤ lo + i := by omega
              have e2 : lo + i - (8 - lo) < 8 := by omega
              simp [e1, e2, h7]
            · have : y.getLsbD (lo + i) = false := BitVec.getLsbD_of_ge _ _ (by omega)
              simp [this]
          exact hb _ (by omega) h4 _
        · rw [if_neg hx, if_neg (by omega), uaBody_other _ hx]

/-- C102, partial: exactly when the source and the destination of `copyBitsAlignedToUnaligned` may overlap: if the destination
starts before the source, or begins after the last byte read, or both start at the same byte and at least four bits are
skipped. Missing: every other overlap. -/
theorem C102_aligned_iff_partial (sp dp off len : Nat) (hlen : 0 < len) (hbig : sp + dp + off + len < 2 ^ 60) :
    AUSame sp dp off len ↔
      dp < sp ∨ ¬ Touched off len (off / 8 + (dp - sp)) ∨ (dp = sp ∧ 4 ≤ off % 8) := by
  constructor
  · intro h
    apply Classical.byContradiction
    intro hc
    have hle : sp ≤ dp := Nat.le_of_not_lt fun h => hc (.inl h)
    have htd : Touched off len (off / 8 + (dp - sp)) := Classical.byContradiction fun h => hc (.inr (.inl h))
    have hip : dp = sp → off % 8 < 4 := fun he => Nat.lt_of_not_le fun h4 => hc (.inr (.inr ⟨he, h4⟩))
    obtain ⟨hn, hroom⟩ := room hbig
    have hlo8 : off % 8 < 8 := by omega
    rcases Nat.lt_or_eq_of_le hle with hlt | rfl
    · obtain ⟨k, hk⟩ : ∃ k, dp = sp + (k + 1) := ⟨dp - sp - 1, by omega⟩
      subst hk
      rw [show sp + (k + 1) - sp = k + 1 by omega] at htd
      obtain ⟨m, dst', a', e1, e2, e3⟩ := h _ (upd (fun _ => 0) (sp + off / 8) 0xFF) hn hroom
      obtain ⟨dst2, f1, f2⟩ := au_sep (upd (fun _ => 0) (sp + off / 8) 0xFF) hlen hn hroom
      rw [f1] at e1
      simp only [Outcome.ok.injEq, Prod.mk.injEq, Option.some.injEq] at e1
      obtain ⟨-, rfl⟩ := e1
      simp only [copyBitsAlignedToUnalignedA] at e2
      rw [if_neg (by omega)] at e2
      -- the first byte written
      have hw : ∀ b, b = auNext sp (sp + (k + 1)) (off % 8) (off / 8)
          (auBody sp (sp + (k + 1)) (off % 8) (off / 8) (upd (fun _ => 0) (sp + off / 8) 0xFF)) →
          b (sp + (k + 1) + off / 8) = auByte (off % 8) 0 0xFF |||
            (if k = 0 then shr (auByte (off % 8) 0 0xFF) (8 - off % 8) else shr 0 (8 - off % 8)) := by
        rintro b rfl
        rw [auNext, upd_same, auBody_same _ (by omega), upd_same, upd_other _ _ (by omega)]
        congr 1
        by_cases hk : k = 0
        · subst hk
          rw [if_pos rfl, show sp + (off / 8 + 1) = sp + (0 + 1) + off / 8 by omega, auBody_same _ (by omega), upd_same,
            upd_other _ _ (by omega)]
        · rw [if_neg hk, auBody_other _ (by omega), upd_other _ _ (by omega)]
      by_cases hlo4 : off % 8 < 4
      · -- bits arrive twice
        have hb := (hroom _ htd).2
        have e4 := e3 (sp + (k + 1) + (off / 8 + (k + 1))) hb
        rw [if_pos (by omega), Nat.add_sub_cancel_left, f2 _ hb, if_pos (by simp only [Touched] at htd; omega),
          upd_other _ _ (by omega), upd_other _ _ (by omega), upd_other _ _ (by omega)] at e4
        obtain ⟨c', b, g1, g2⟩ := auLoopA_skip (c := 0) (lo := off % 8) (upd (fun _ => 0) (sp + off / 8) 0xFF)
          hroom hn k htd
        rw [g1, auLoopA_step _ (fun j hj => hroom j (by simp only [Touched] at *; omega)) hn] at e2
        have hdiv : (off + 8 * (k + 1)) / 8 = off / 8 + (k + 1) := by omega
        rw [hdiv] at e2
        have hsrc : b (sp + (off / 8 + (k + 1))) = auByte (off % 8) 0 0xFF |||
            (if k = 0 then shr (auByte (off % 8) 0 0xFF) (8 - off % 8) else shr 0 (8 - off % 8)) := by
          rw [show sp + (off / 8 + (k + 1)) = sp + (k + 1) + off / 8 by omega, g2 _ (Nat.le_refl _)]
          exact hw _ rfl
        have hval : ∃ v w, a' (sp + (k + 1) + (off / 8 + (k + 1))) =
            auByte (off % 8) v (b (sp + (off / 8 + (k + 1)))) ||| w := by
          split at e2
          · obtain ⟨a2, p1, p2⟩ := auLoopA_frame (c := c' + min len (8 - off % 8) + off % 8) (off := off + 8 * (k + 1) + 8)
              (lo := off % 8) (sp := sp) (dp := sp + (k + 1)) (n := sp + (sp + (k + 1)) + off + len + 1) (len := len)
              (auNext sp (sp + (k + 1)) (off % 8) (off / 8 + (k + 1))
                (auBody sp (sp + (k + 1)) (off % 8) (off / 8 + (k + 1)) b)) (by omega)
              (fun j hj => hroom j (by simp only [Touched] at *; omega)) hn
            rw [p1] at e2
            simp only [Outcome.ok.injEq, Prod.mk.injEq] at e2
            rw [← e2.2, p2 _ (by omega), auNext, upd_same, auBody_same _ (by omega)]
            exact ⟨_, _, rfl⟩
          · simp only [Outcome.ok.injEq, Prod.mk.injEq] at e2
            rw [← e2.2, auBody_same _ (by omega)]
            exact ⟨_, 0, (BitVec.or_zero).symm⟩
        obtain ⟨v, w, hv⟩ := hval
        rw [hv, hsrc] at e4
        have e5 := congrArg (BitVec.getLsbD · 7) e4
        simp only [BitVec.getLsbD_or, auByte, BitVec.getLsbD_and, shl_getLsbD _ (off % 8) _ (by omega), shr_getLsbD,
          ff_getLsbD] at e5
        have c1 : ¬ 8 - off % 8 + 7 < 8 := by omega
        have c2 : off % 8 ≤ 7 := by omega
        have c3 : off % 8 ≤ 7 - off % 8 := by omega
        have c4 : 7 - off % 8 < 8 := by omega
        have c5 : 7 - off % 8 - off % 8 < 8 := by omega
        have hz : ∀ i, (0 : Byte).getLsbD i = false := by intro i; simp
        have hrhs : (if 8 * (off / 8 + (k + 1) + 1) + off % 8 < len then shr (0 : Byte) (8 - off % 8) else 0).getLsbD 7 = false := by
          rw [shr_zero, ite_self]; simp
        rw [hrhs] at e5
        simp only [c1, c2, c3, c4, c5, decide_true, decide_false] at e5
        simp at e5
      · -- the byte before
        by_cases hk : k = 0
        · subst hk
          have ht0 : Touched off len (off / 8) := .inl rfl
          have hb := (hroom _ ht0).2
          have e4 := e3 (sp + (0 + 1) + off / 8) hb
          rw [if_pos (by omega), Nat.add_sub_cancel_left, f2 _ hb, if_pos (.inl rfl), upd_other _ _ (by omega), upd_same,
            upd_other _ _ (by omega)] at e4
          have h2 := touched_skip htd
          rw [if_pos (by omega)] at e4
          rw [auLoopA_step _ hroom hn, if_pos h2] at e2
          obtain ⟨a2, p1, p2⟩ := auLoopA_frame (c := 0 + min len (8 - off % 8) + off % 8) (off := off + 8)
            (lo := off % 8) (sp := sp) (dp := sp + (0 + 1)) (n := sp + (sp + (0 + 1)) + off + len + 1) (len := len)
            (auNext sp (sp + (0 + 1)) (off % 8) (off / 8)
              (auBody sp (sp + (0 + 1)) (off % 8) (off / 8) (upd (fun _ => 0) (sp + off / 8) 0xFF))) (by omega)
            (fun j hj => hroom j (by simp only [Touched] at *; omega)) hn
          rw [p1] at e2
          simp only [Outcome.ok.injEq, Prod.mk.injEq] at e2
          rw [← e2.2, p2 _ (by omega), hw _ rfl, if_pos rfl] at e4
          have hlo4' : 4 ≤ off % 8 := by omega
          exact key4 _ hlo8 hlo4' e4
        · obtain ⟨i, rfl⟩ : ∃ i, k = i + 1 := ⟨k - 1, by omega⟩
          have htp : Touched off len (off / 8 + (i + 1)) := by simp only [Touched] at *; omega
          have hb := (hroom _ htp).2
          have e4 := e3 (sp + (i + 1 + 1) + (off / 8 + (i + 1))) hb
          rw [if_pos (by omega), Nat.add_sub_cancel_left, f2 _ hb, if_pos (by simp only [Touched] at htp; omega),
            upd_other _ _ (by omega), upd_other _ _ (by omega), upd_other _ _ (by omega)] at e4
          obtain ⟨c', b, g1, g2⟩ := auLoopA_skip (c := 0) (lo := off % 8) (upd (fun _ => 0) (sp + off / 8) 0xFF)
            hroom hn i htp
          rw [g1, auLoopA_step _ (fun j hj => hroom j (by simp only [Touched] at *; omega)) hn] at e2
          have hdiv : (off + 8 * (i + 1)) / 8 = off / 8 + (i + 1) := by omega
          rw [hdiv, if_pos (by simp only [Touched] at htd; omega)] at e2
          obtain ⟨a2, p1, p2⟩ := auLoopA_frame (c := c' + min len (8 - off % 8) + off % 8) (off := off + 8 * (i + 1) + 8)
            (lo := off % 8) (sp := sp) (dp := sp + (i + 1 + 1)) (n := sp + (sp + (i + 1 + 1)) + off + len + 1) (len := len)
            (auNext sp (sp + (i + 1 + 1)) (off % 8) (off / 8 + (i + 1))
              (auBody sp (sp + (i + 1 + 1)) (off % 8) (off / 8 + (i + 1)) b)) (by omega)
            (fun j hj => hroom j (by simp only [Touched] at *; omega)) hn
          rw [p1] at e2
          simp only [Outcome.ok.injEq, Prod.mk.injEq] at e2
          have hsrc : b (sp + (off / 8 + (i + 1) + 1)) = auByte (off % 8) 0 0xFF ||| shr 0 (8 - off % 8) := by
            rw [show sp + (off / 8 + (i + 1) + 1) = sp + (i + 1 + 1) + off / 8 by omega, g2 _ (Nat.le_refl _), hw _ rfl,
              if_neg (by omega)]
          rw [← e2.2, p2 _ (by omega), auNext, upd_same, auBody_other _ (x := sp + (off / 8 + (i + 1) + 1)) (by omega), hsrc] at e4
          have e5 := congrArg (BitVec.getLsbD · (off % 8 - 1)) e4
          have c1 : off % 8 - 1 < 8 := by omega
          have c2 : ¬ off % 8 ≤ off % 8 - 1 := by omega
          have c3 : 8 - off % 8 + (off % 8 - 1) = 7 := by omega
          have c4 : off % 8 ≤ 7 := by omega
          have c5 : 7 - off % 8 < 8 := by omega
          have hrhs : (if 8 * (off / 8 + (i + 1) + 1) + off % 8 < len then shr (0 : Byte) (8 - off % 8) else 0).getLsbD
              (off % 8 - 1) = false := by
            rw [shr_zero, ite_self]; simp
          simp only [BitVec.getLsbD_or] at e5
          rw [hrhs] at e5
          rw [shr_getLsbD, c3, shr_zero] at e5
          simp only [auByte, BitVec.getLsbD_or, shl_getLsbD _ (off % 8) _ (show off % 8 ≤ 8 by omega), ff_getLsbD] at e5
          simp [c1, c2, c4, c5] at e5
    · have hlo4 := hip rfl
      obtain ⟨m, dst', a', e1, e2, e3⟩ := h _ (fun _ => 0xFF) hn hroom
      obtain ⟨dst2, f1, f2⟩ := au_sep (fun _ => 0xFF) hlen hn hroom
      rw [f1] at e1
      simp only [Outcome.ok.injEq, Prod.mk.injEq, Option.some.injEq] at e1
      obtain ⟨-, rfl⟩ := e1
      simp only [copyBitsAlignedToUnalignedA] at e2
      rw [if_neg (by omega), auLoopA_step _ hroom hn] at e2
      have ht0 : Touched off len (off / 8) := .inl rfl
      have hb := (hroom _ ht0).2
      have e4 := e3 _ hb
      rw [if_pos (by omega), Nat.add_sub_cancel_left, f2 _ hb, if_pos (.inl rfl)] at e4
      by_cases h2 : off + 8 < len
      · rw [if_pos h2] at e2
        obtain ⟨a2, p1, p2⟩ := auLoopA_frame (c := 0 + min len (8 - off % 8) + off % 8) (off := off + 8)
          (lo := off % 8) (sp := sp) (dp := sp) (n := sp + sp + off + len + 1) (len := len)
          (auNext sp sp (off % 8) (off / 8) (auBody sp sp (off % 8) (off / 8) (fun _ => 0xFF))) (by omega)
          (fun j hj => hroom j (by simp only [Touched] at *; omega)) hn
        rw [p1] at e2
        simp only [Outcome.ok.injEq, Prod.mk.injEq] at e2
        rw [if_pos (by omega), ← e2.2, p2 _ (by omega), auNext, upd_same, auBody_inplace, auBody_other _ (by omega)] at e4
        exact key5 _ hlo4 e4
      · rw [if_neg h2] at e2
        simp only [Outcome.ok.injEq, Prod.mk.injEq] at e2
        rw [if_neg (by omega), ← e2.2, auBody_inplace] at e4
        exact key6 _ hlo4 e4
  · intro hz n a hn ht
    obtain ⟨dst2, f1, f2⟩ := au_sep a hlen hn ht
    obtain ⟨a', g1, g2⟩ := auLoopA_ok (c := 0) a rfl ht hn hz
    refine ⟨_, dst2, a', f1, ?_, ?_⟩
    · rw [copyBitsAlignedToUnalignedA, if_neg (by omega), g1, Nat.zero_add]
    · intro x hx
      rw [g2 x]
      by_cases hd : dp ≤ x
      · rw [if_pos hd, f2 (x - dp) (by omega), show dp + (x - dp) = x by omega]
        by_cases h1 : x = dp + off / 8 ∨ (dp + off / 8 < x ∧ 8 * (x - dp) + off % 8 < len)
        · have h1' : x - dp = off / 8 ∨ (off / 8 < x - dp ∧ 8 * (x - dp) + off % 8 < len) := by omega
          rw [if_pos h1, if_pos h1']
        · have h1' : ¬ (x - dp = off / 8 ∨ (off / 8 < x - dp ∧ 8 * (x - dp) + off % 8 < len)) := by omega
          rw [if_neg h1, if_neg h1']
      · have h1 : ¬ (x = dp + off / 8 ∨ (dp + off / 8 < x ∧ 8 * (x - dp) + off % 8 < len)) := by omega
        rw [if_neg hd, if_neg h1]

/-- C102: nothing to copy is nothing copied, wherever the pointers point. -/
theorem C102_nothing (n sp dp off : Nat) (a : Arr) :
    copyBitsUnalignedToAlignedA n sp dp off 0 a = .ok (0, a) ∧ copyBitsAlignedToUnalignedA n sp dp off 0 a = .ok (0, a) ∧
      UASame sp dp off 0 ∧ AUSame sp dp off 0 := by
  have hx : ∀ (n : Nat) (a : Arr) x, x < n → a x = if dp ≤ x then (view n dp a).getD (x - dp) 0 else a x := by
    intro n a x hx
    by_cases h : dp ≤ x
    · rw [if_pos h, view_getD a (by omega), show dp + (x - dp) = x by omega]
    · rw [if_neg h]
  refine ⟨rfl, rfl, fun n a _ _ => ⟨0, _, a, ?_, rfl, hx n a⟩, fun n a _ _ => ⟨0, _, a, ?_, rfl, hx n a⟩⟩
  · simp [copyBitsUnalignedToAligned]
  · simp [copyBitsAlignedToUnaligned]

/-- C102 is false of the code: copying a byte onto itself does not leave it as it is. -/
theorem C102_full_statement_fails : ¬ C102_Statement := by
  intro h
  have := (C102_unaligned_iff_partial 0 0 0 8 (by decide) (by decide)).1 (h 0 0 0 8).1
  revert this
  decide

/-- C102: what happens in place with an offset of whole bytes, for both functions: every byte accessed becomes zero. -/
theorem C102_in_place_erases (n p off len : Nat) (a : Arr) (hlen : 0 < len) (h8 : off % 8 = 0) (hn : n < 2 ^ 61)
    (ht : ∀ j, Touched off len j → p + j < n) :
    (∃ k a', copyBitsUnalignedToAlignedA n p p off len a = .ok (k, a') ∧ ∀ j, Touched off len j → a' (p + j) = 0) ∧
    (∃ k a', copyBitsAlignedToUnalignedA n p p off len a = .ok (k, a') ∧ ∀ j, Touched off len j → a' (p + j) = 0) := by
  have ht2 : ∀ j, Touched off len j → p + j < n ∧ p + j < n := fun j hj => ⟨ht j hj, ht j hj⟩
  rw [copyBitsUnalignedToAlignedA, copyBitsAlignedToUnalignedA, if_neg (by omega), if_neg (by omega), h8]
  obtain ⟨a1, e1, z1⟩ := uaLoopA_erases (c := 0) a h8 ht2 hn
  obtain ⟨a2, e2, z2⟩ := auLoopA_erases (c := 0) a h8 ht2 hn
  exact ⟨⟨_, a1, e1, z1⟩, ⟨_, a2, e2, z2⟩⟩

example : (match copyBitsUnalignedToAlignedA 4 0 0 0 24 (fun x => BitVec.ofNat 8 (x + 1)) with
    | .ok (k, a) => (k, a 0, a 1, a 2, a 3) | .ub _ => (0, 0, 0, 0, 0)) = (24, 0, 0, 0, 4) := by decide +kernel

/-- Moving whole bytes towards the beginning of an array is fine, towards the end is not. -/
example : UASame 1 0 0 24 ∧ ¬ UASame 0 1 0 24 ∧ AUSame 1 0 0 24 ∧ ¬ AUSame 0 1 0 24 ∧ AUSame 0 0 4 24 ∧ ¬ UASame 0 0 4 24 := by
  rw [C102_unaligned_iff_partial _ _ _ _ (by decide) (by decide), C102_unaligned_iff_partial _ _ _ _ (by decide) (by decide),
    C102_unaligned_iff_partial _ _ _ _ (by decide) (by decide),
    C102_aligned_iff_partial _ _ _ _ (by decide) (by decide), C102_aligned_iff_partial _ _ _ _ (by decide) (by decide),
    C102_aligned_iff_partial _ _ _ _ (by decide) (by decide)]
  decide

end Uavcan.CopyBits
