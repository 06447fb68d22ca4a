import Verif.Model.CopyBitsOverlap
import Verif.Lemmas.CopyBits

namespace Uavcan.CopyBits
open Spec

/-- The array with one byte replaced. -/
def upd (a : Arr) (i : Nat) (v : Byte) : Arr := fun x => if x = i then v else a x

theorem upd_same (a : Arr) (i : Nat) (v : Byte) : upd a i v i = v := by simp [upd]

theorem upd_other (a : Arr) {i x : Nat} (v : Byte) (h : x ≠ i) : upd a i v x = a x := by simp [upd, h]

theorem rdA_ok {n i : Nat} (a : Arr) (h : i < n) : rdA n a i = .ok (a i) := by simp [rdA, h]

theorem wrA_ok {n i : Nat} (a : Arr) (v : Byte) (h : i < n) : wrA n a i v = .ok (upd a i v) := by
  simp only [wrA, h, if_true]; rfl

theorem touched_next {off len j : Nat} (h : off + 8 < len) (ht : Touched (off + 8) len j) : Touched off len j := by
  simp only [Touched] at *; omega

theorem touched_skip {off len k : Nat} (h : Touched off len (off / 8 + (k + 1))) : off + 8 < len := by
  simp only [Touched] at h; omega

theorem touched_shift {off len k : Nat} (h : Touched off len (off / 8 + (k + 1))) :
    Touched (off + 8) len ((off + 8) / 8 + k) := by
  simp only [Touched] at *; omega

/-! ## Unaligned to aligned -/

/-- Lines 336–337 on one array. -/
def uaBody (sp dp lo cb : Nat) (a : Arr) : Arr :=
  let a1 := upd a (dp + cb) (a (dp + cb) &&& shl 0xFF (8 - lo))
  upd a1 (dp + cb) (a1 (dp + cb) ||| shr (a1 (sp + cb)) lo)

/-- Line 342 on one array. -/
def uaNext (sp dp lo cb : Nat) (a : Arr) : Arr := upd a (dp + cb) (shl (a (sp + cb)) (8 - lo))

theorem uaBody_other {sp dp lo cb x : Nat} (a : Arr) (h : x ≠ dp + cb) : uaBody sp dp lo cb a x = a x := by
  simp only [uaBody]
  rw [upd_other _ _ h, upd_other _ _ h]

theorem uaBody_same {sp dp lo cb : Nat} (a : Arr) (h : sp ≠ dp) :
    uaBody sp dp lo cb a (dp + cb) = uaByte lo (a (dp + cb)) (a (sp + cb)) := by
  simp only [uaBody, upd_same, uaByte]
  rw [upd_other _ _ (by omega)]

theorem uaBody_inplace {p lo cb : Nat} (a : Arr) :
    uaBody p p lo cb a (p + cb) =
      (a (p + cb) &&& shl 0xFF (8 - lo)) ||| shr (a (p + cb) &&& shl 0xFF (8 - lo)) lo := by
  simp only [uaBody, upd_same]

theorem uaLoopA_step {n sp dp lo len off c : Nat} (a : Arr)
    (ht : ∀ j, Touched off len j → sp + j < n ∧ dp + j < n) (hn : n < 2 ^ 61) :
    uaLoopA n sp dp lo len off c a =
      if off + 8 < len then
        uaLoopA n sp dp lo len (off + 8) (c + min len (8 - lo) + lo)
          (uaNext sp dp lo (off / 8 + 1) (uaBody sp dp lo (off / 8) a))
      else .ok (c + min len (8 - lo), uaBody sp dp lo (off / 8) a) := by
  obtain ⟨h1, h2⟩ := ht (off / 8) (.inl rfl)
  conv => lhs; unfold uaLoopA
  simp only [rdA_ok _ h1, rdA_ok _ h2, wrA_ok _ _ h2, Outcome.ok_bind]
  rw [if_neg (by omega)]
  by_cases hlt : off + 8 < len
  · rw [if_pos hlt, if_pos hlt]
    have he : (off + 8) / 8 = off / 8 + 1 := by omega
    obtain ⟨h3, h4⟩ := ht (off / 8 + 1) (.inr ⟨by omega, by omega⟩)
    rw [he, rdA_ok _ h3, Outcome.ok_bind, wrA_ok _ _ h4, Outcome.ok_bind]
    rfl
  · rw [if_neg hlt, if_neg hlt]
    rfl

/-- The loop always ends, with the same count, and never writes before the byte of the offset. -/
theorem uaLoopA_frame {n sp dp lo len off c : Nat} (a : Arr) (hlo : off % 8 = lo)
    (ht : ∀ j, Touched off len j → sp + j < n ∧ dp + j < n) (hn : n < 2 ^ 61) :
    ∃ a', uaLoopA n sp dp lo len off c a = .ok (c + count off len, a') ∧ ∀ x, x < dp + off / 8 → a' x = a x := by
  induction hm : len - off using Nat.strongRecOn generalizing off c a with
  | _ m ih =>
  rw [uaLoopA_step a ht hn]
  by_cases hlt : off + 8 < len
  · rw [if_pos hlt]
    obtain ⟨a', e1, e2⟩ := ih (len - (off + 8)) (by omega) (off := off + 8) (c := c + min len (8 - lo) + lo)
      (uaNext sp dp lo (off / 8 + 1) (uaBody sp dp lo (off / 8) a)) (by omega)
      (fun j hj => ht j (touched_next hlt hj)) rfl
    refine ⟨a', ?_, ?_⟩
    · rw [e1, count_step hlt, hlo]
      congr 2; omega
    · intro x hx
      rw [e2 x (by omega), uaNext, upd_other _ _ (by omega), uaBody_other _ (by omega)]
  · rw [if_neg hlt]
    refine ⟨_, by rw [count_last (by omega), hlo], ?_⟩
    intro x hx
    rw [uaBody_other _ (by omega)]

/-- Skip to a later byte. -/
theorem uaLoopA_skip {n sp dp lo len off c : Nat} (a : Arr) (hne : sp ≠ dp)
    (ht : ∀ j, Touched off len j → sp + j < n ∧ dp + j < n) (hn : n < 2 ^ 61) (k : Nat)
    (hk : Touched off len (off / 8 + (k + 1))) :
    ∃ c' a', uaLoopA n sp dp lo len off c a = uaLoopA n sp dp lo len (off + 8 * (k + 1)) c' a' ∧
      (∀ x, x ≤ dp + off / 8 → a' x = uaBody sp dp lo (off / 8) a x) ∧
      a' (dp + (off / 8 + (k + 1))) = shl (a' (sp + (off / 8 + (k + 1)))) (8 - lo) := by
  induction k generalizing off c a with
  | zero =>
    refine ⟨c + min len (8 - lo) + lo, uaNext sp dp lo (off / 8 + 1) (uaBody sp dp lo (off / 8) a), ?_, ?_, ?_⟩
    · rw [uaLoopA_step a ht hn, if_pos (touched_skip hk)]
    · intro x hx
      rw [uaNext, upd_other _ _ (by omega)]
    · rw [Nat.zero_add, uaNext, upd_same, upd_other _ _ (by omega)]
  | succ k ih =>
    have hlt := touched_skip hk
    obtain ⟨c', a', e1, e2, e3⟩ := ih (off := off + 8) (c := c + min len (8 - lo) + lo)
      (uaNext sp dp lo (off / 8 + 1) (uaBody sp dp lo (off / 8) a)) (fun j hj => ht j (touched_next hlt hj))
      (touched_shift hk)
    refine ⟨c', a', ?_, ?_, ?_⟩
    · rw [uaLoopA_step a ht hn, if_pos hlt, e1]
      congr 1; omega
    · intro x hx
      rw [e2 x (by omega), uaBody_other _ (by omega), uaNext, upd_other _ _ (by omega)]
    · have h : (off + 8) / 8 + (k + 1) = off / 8 + (k + 1 + 1) := by omega
      rw [h] at e3
      exact e3

/-- Without a hazard the loop computes what it computes on separate buffers. -/
theorem uaLoopA_ok {n sp dp lo len off c : Nat} (a : Arr) (hlo : off % 8 = lo)
    (ht : ∀ j, Touched off len j → sp + j < n ∧ dp + j < n) (hn : n < 2 ^ 61)
    (hz : dp < sp ∨ ¬ Touched off len (off / 8 + (dp - sp))) :
    ∃ a', uaLoopA n sp dp lo len off c a = .ok (c + count off len, a') ∧
      ∀ x, a' x =
        if x = dp + off / 8 then uaByte lo (a x) (a (sp + off / 8))
        else if dp + off / 8 < x ∧ 8 * (x - dp) + lo < len then
          uaByte lo (shl (a (sp + (x - dp))) (8 - lo)) (a (sp + (x - dp)))
        else a x := by
  have hne : sp ≠ dp := by
    rintro rfl
    simp only [Nat.sub_self, Nat.add_zero, Touched, true_or, not_true, or_false] at hz
    omega
  induction hm : len - off using Nat.strongRecOn generalizing off c a with
  | _ m ih =>
  rw [uaLoopA_step a ht hn]
  by_cases hlt : off + 8 < len
  · rw [if_pos hlt]
    obtain ⟨a', e1, e2⟩ := ih (len - (off + 8)) (by omega) (off := off + 8) (c := c + min len (8 - lo) + lo)
      (uaNext sp dp lo (off / 8 + 1) (uaBody sp dp lo (off / 8) a)) (by omega)
      (fun j hj => ht j (touched_next hlt hj))
      (by
        rcases hz with h | h
        · exact .inl h
        · right; intro hc; apply h; simp only [Touched] at *; omega) rfl
    refine ⟨a', ?_, ?_⟩
    · rw [e1, count_step hlt, hlo]
      congr 2; omega
    · intro x
      have hz' : dp < sp ∨ len ≤ 8 * (off / 8 + (dp - sp)) + off % 8 := by
        rcases hz with h | h
        · exact .inl h
        · simp only [Touched] at h; omega
      have he : (off + 8) / 8 = off / 8 + 1 := by omega
      rw [e2 x, he]
      have hs : ∀ j, off / 8 < j → 8 * j + lo < len → sp + j ≠ dp + off / 8 ∧ (off / 8 + 1 < j → sp + j ≠ dp + (off / 8 + 1)) := by
        intro j h1 h2; omega
      by_cases hx0 : x = dp + off / 8
      · subst hx0
        rw [if_neg (by omega), if_neg (by omega), if_pos rfl, uaNext, upd_other _ _ (by omega), uaBody_same _ hne]
      · rw [if_neg hx0]
        by_cases hx1 : x = dp + (off / 8 + 1)
        · subst hx1
          rw [if_pos rfl, if_pos (by omega), uaNext, upd_same, upd_other _ _ (by omega), uaBody_other _ (by omega)]
          congr 3 <;> omega
        · rw [if_neg hx1]
          by_cases hx2 : dp + off / 8 < x ∧ 8 * (x - dp) + lo < len
          · rw [if_pos (by omega), if_pos hx2, uaNext, upd_other _ _ (by omega), uaBody_other _ (by omega)]
          · rw [if_neg (by omega), if_neg hx2, uaNext, upd_other _ _ hx1, uaBody_other _ hx0]
  · rw [if_neg hlt]
    refine ⟨_, by rw [count_last (by omega), hlo], ?_⟩
    intro x
    by_cases hx0 : x = dp + off / 8
    · subst hx0; rw [if_pos rfl, uaBody_same _ hne]
    · rw [if_neg hx0, if_neg (by omega), uaBody_other _ hx0]

/-- In place, with an offset of whole bytes, everything accessed is erased. -/
theorem uaLoopA_erases {n p len off c : Nat} (a : Arr) (h8 : off % 8 = 0)
    (ht : ∀ j, Touched off len j → p + j < n ∧ p + j < n) (hn : n < 2 ^ 61) :
    ∃ a', uaLoopA n p p 0 len off c a = .ok (c + count off len, a') ∧ ∀ j, Touched off len j → a' (p + j) = 0 := by
  have z : ∀ (b : Arr) cb, uaBody p p 0 cb b (p + cb) = 0 := by
    intro b cb
    have h0 : shl (0xFF : Byte) (8 - 0) = 0#8 := by decide
    have h1 : shr (0#8 : Byte) 0 = 0#8 := by decide
    rw [uaBody_inplace, h0, BitVec.and_zero, h1]; rfl
  induction hm : len - off using Nat.strongRecOn generalizing off c a with
  | _ m ih =>
  rw [uaLoopA_step a ht hn]
  by_cases hlt : off + 8 < len
  · rw [if_pos hlt]
    obtain ⟨a', e1, e2⟩ := ih (len - (off + 8)) (by omega) (off := off + 8) (c := c + min len (8 - 0) + 0)
      (uaNext p p 0 (off / 8 + 1) (uaBody p p 0 (off / 8) a)) (by omega)
      (fun j hj => ht j (touched_next hlt hj)) rfl
    obtain ⟨a2, f1, f2⟩ := uaLoopA_frame (c := c + min len (8 - 0) + 0) (off := off + 8) (lo := 0)
      (uaNext p p 0 (off / 8 + 1) (uaBody p p 0 (off / 8) a)) (by omega)
      (fun j hj => ht j (touched_next hlt hj)) hn
    rw [e1] at f1
    simp only [Outcome.ok.injEq, Prod.mk.injEq, true_and] at f1
    subst f1
    refine ⟨a', ?_, ?_⟩
    · rw [e1, count_step hlt, h8]
      congr 2; omega
    · intro j hj
      by_cases hj0 : j = off / 8
      · subst hj0
        rw [f2 _ (by omega), uaNext, upd_other _ _ (by omega), z]
      · exact e2 j (by simp only [Touched] at *; omega)
  · rw [if_neg hlt]
    refine ⟨_, by rw [count_last (by omega), h8], ?_⟩
    intro j hj
    have : j = off / 8 := by simp only [Touched] at hj; omega
    rw [this, z]

/-! ## Aligned to unaligned -/

/-- Lines 382–383 on one array. -/
def auBody (sp dp lo cb : Nat) (a : Arr) : Arr :=
  let a1 := upd a (dp + cb) (a (dp + cb) &&& shr 0xFF (8 - lo))
  upd a1 (dp + cb) (a1 (dp + cb) ||| shl (a1 (sp + cb)) lo)

/-- Line 388 on one array. -/
def auNext (sp dp lo cb : Nat) (a : Arr) : Arr :=
  upd a (dp + cb) (a (dp + cb) ||| shr (a (sp + (cb + 1))) (8 - lo))

theorem auBody_other {sp dp lo cb x : Nat} (a : Arr) (h : x ≠ dp + cb) : auBody sp dp lo cb a x = a x := by
  simp only [auBody]
  rw [upd_other _ _ h, upd_other _ _ h]

theorem auBody_same {sp dp lo cb : Nat} (a : Arr) (h : sp ≠ dp) :
    auBody sp dp lo cb a (dp + cb) = auByte lo (a (dp + cb)) (a (sp + cb)) := by
  simp only [auBody, upd_same, auByte]
  rw [upd_other _ _ (by omega)]

theorem auBody_inplace {p lo cb : Nat} (a : Arr) :
    auBody p p lo cb a (p + cb) =
      (a (p + cb) &&& shr 0xFF (8 - lo)) ||| shl (a (p + cb) &&& shr 0xFF (8 - lo)) lo := by
  simp only [auBody, upd_same]

theorem auLoopA_step {n sp dp lo len off c : Nat} (a : Arr)
    (ht : ∀ j, Touched off len j → sp + j < n ∧ dp + j < n) (hn : n < 2 ^ 61) :
    auLoopA n sp dp lo len off c a =
      if off + 8 < len then
        auLoopA n sp dp lo len (off + 8) (c + min len (8 - lo) + lo)
          (auNext sp dp lo (off / 8) (auBody sp dp lo (off / 8) a))
      else .ok (c + min len (8 - lo), auBody sp dp lo (off / 8) a) := by
  obtain ⟨h1, h2⟩ := ht (off / 8) (.inl rfl)
  conv => lhs; unfold auLoopA
  simp only [rdA_ok _ h1, rdA_ok _ h2, wrA_ok _ _ h2, Outcome.ok_bind]
  rw [if_neg (by omega)]
  by_cases hlt : off + 8 < len
  · rw [if_pos hlt, if_pos hlt]
    have he : (off + 8) / 8 = off / 8 + 1 := by omega
    obtain ⟨h3, h4⟩ := ht (off / 8 + 1) (.inr ⟨by omega, by omega⟩)
    rw [he, rdA_ok _ h3, Outcome.ok_bind]
    rfl
  · rw [if_neg hlt, if_neg hlt]
    rfl

/-- The loop always ends, with the same count, and never writes before the byte of the offset. -/
theorem auLoopA_frame {n sp dp lo len off c : Nat} (a : Arr) (hlo : off % 8 = lo)
    (ht : ∀ j, Touched off len j → sp + j < n ∧ dp + j < n) (hn : n < 2 ^ 61) :
    ∃ a', auLoopA n sp dp lo len off c a = .ok (c + count off len, a') ∧ ∀ x, x < dp + off / 8 → a' x = a x := by
  induction hm : len - off using Nat.strongRecOn generalizing off c a with
  | _ m ih =>
  rw [auLoopA_step a ht hn]
  by_cases hlt : off + 8 < len
  · rw [if_pos hlt]
    obtain ⟨a', e1, e2⟩ := ih (len - (off + 8)) (by omega) (off := off + 8) (c := c + min len (8 - lo) + lo)
      (auNext sp dp lo (off / 8) (auBody sp dp lo (off / 8) a)) (by omega)
      (fun j hj => ht j (touched_next hlt hj)) rfl
    refine ⟨a', ?_, ?_⟩
    · rw [e1, count_step hlt, hlo]
      congr 2; omega
    · intro x hx
      rw [e2 x (by omega), auNext, upd_other _ _ (by omega), auBody_other _ (by omega)]
  · rw [if_neg hlt]
    refine ⟨_, by rw [count_last (by omega), hlo], ?_⟩
    intro x hx
    rw [auBody_other _ (by omega)]

/-- Skip to a later byte. -/
theorem auLoopA_skip {n sp dp lo len off c : Nat} (a : Arr)
    (ht : ∀ j, Touched off len j → sp + j < n ∧ dp + j < n) (hn : n < 2 ^ 61) (k : Nat)
    (hk : Touched off len (off / 8 + (k + 1))) :
    ∃ c' a', auLoopA n sp dp lo len off c a = auLoopA n sp dp lo len (off + 8 * (k + 1)) c' a' ∧
      ∀ x, x ≤ dp + off / 8 → a' x = auNext sp dp lo (off / 8) (auBody sp dp lo (off / 8) a) x := by
  induction k generalizing off c a with
  | zero =>
    refine ⟨c + min len (8 - lo) + lo, auNext sp dp lo (off / 8) (auBody sp dp lo (off / 8) a), ?_, ?_⟩
    · rw [auLoopA_step a ht hn, if_pos (touched_skip hk)]
    · intro x hx; rfl
  | succ k ih =>
    have hlt := touched_skip hk
    obtain ⟨c', a', e1, e2⟩ := ih (off := off + 8) (c := c + min len (8 - lo) + lo)
      (auNext sp dp lo (off / 8) (auBody sp dp lo (off / 8) a)) (fun j hj => ht j (touched_next hlt hj))
      (touched_shift hk)
    refine ⟨c', a', ?_, ?_⟩
    · rw [auLoopA_step a ht hn, if_pos hlt, e1]
      congr 1; omega
    · intro x hx
      rw [e2 x (by omega)]
      conv => lhs; rw [auNext, upd_other _ _ (by omega), auBody_other _ (by omega)]

/-- In place the low bits are not disturbed by shifting them up, if at least half of the byte is kept. -/
theorem au_inplace_byte (lo : Nat) (h4 : 4 ≤ lo) (x : Byte) :
    (x &&& shr 0xFF (8 - lo)) ||| shl (x &&& shr 0xFF (8 - lo)) lo = auByte lo x x := by
  by_cases h8 : lo ≤ 8
  · apply byte_ext
    intro i hi
    simp only [auByte, BitVec.getLsbD_or, BitVec.getLsbD_and, shl_getLsbD _ _ _ h8, shr_getLsbD, ff_getLsbD]
    by_cases h1 : lo ≤ i
    · have e1 : (8 - lo + (i - lo) < 8) := by omega
      have e2 : (i - lo < 8) := by omega
      simp [e1, e2, hi, h1]
    · simp [h1]
  · have : lo = 8 + (lo - 8) := by omega
    apply byte_ext
    intro i hi
    have e : ∀ y : Byte, (shl y lo).getLsbD i = false := by
      intro y
      simp only [shl, BitVec.getLsbD_setWidth, BitVec.getLsbD_shiftLeft]
      have : i < lo := by omega
      simp [this]
    simp only [auByte, BitVec.getLsbD_or, e]

/-- Without a hazard, or in place with at least half a byte of offset, the loop computes what it computes on separate
buffers. -/
theorem auLoopA_ok {n sp dp lo len off c : Nat} (a : Arr) (hlo : off % 8 = lo)
    (ht : ∀ j, Touched off len j → sp + j < n ∧ dp + j < n) (hn : n < 2 ^ 61)
    (hz : dp < sp ∨ ¬ Touched off len (off / 8 + (dp - sp)) ∨ (dp = sp ∧ 4 ≤ lo)) :
    ∃ a', auLoopA n sp dp lo len off c a = .ok (c + count off len, a') ∧
      ∀ x, a' x =
        if x = dp + off / 8 ∨ (dp + off / 8 < x ∧ 8 * (x - dp) + lo < len) then
          auByte lo (a x) (a (sp + (x - dp))) |||
            (if 8 * (x - dp + 1) + lo < len then shr (a (sp + (x - dp + 1))) (8 - lo) else 0)
        else a x := by
  have hbody : ∀ cb (b : Arr), auBody sp dp lo cb b (dp + cb) = auByte lo (b (dp + cb)) (b (sp + cb)) := by
    intro cb b
    by_cases hne : sp = dp
    · subst hne
      rw [auBody_inplace, au_inplace_byte lo]
      rcases hz with h | h | h
      · omega
      · exact absurd (.inl (by omega)) h
      · exact h.2
    · exact auBody_same _ hne
  induction hm : len - off using Nat.strongRecOn generalizing off c a with
  | _ m ih =>
  rw [auLoopA_step a ht hn]
  have hz' : dp < sp ∨ (sp < dp ∧ len ≤ 8 * (off / 8 + (dp - sp)) + off % 8) ∨ (dp = sp ∧ 4 ≤ lo) := by
    rcases hz with h | h | h
    · exact .inl h
    · simp only [Touched] at h; omega
    · exact .inr (.inr h)
  by_cases hlt : off + 8 < len
  · rw [if_pos hlt]
    obtain ⟨a', e1, e2⟩ := ih (len - (off + 8)) (by omega) (off := off + 8) (c := c + min len (8 - lo) + lo)
      (auNext sp dp lo (off / 8) (auBody sp dp lo (off / 8) a)) (by omega)
      (fun j hj => ht j (touched_next hlt hj))
      (by
        rcases hz with h | h | h
        · exact .inl h
        · right; left; intro hc; apply h; simp only [Touched] at *; omega
        · exact .inr (.inr h)) rfl
    refine ⟨a', ?_, ?_⟩
    · rw [e1, count_step hlt, hlo]
      congr 2; omega
    · intro x
      have he : (off + 8) / 8 = off / 8 + 1 := by omega
      rw [e2 x, he]
      by_cases hx0 : x = dp + off / 8
      · subst hx0
        rw [if_neg (by omega), if_pos (.inl rfl), if_pos (by omega), auNext, upd_same, hbody,
          auBody_other _ (by omega)]
        congr 3 <;> (congr 1; omega)
      · by_cases hx2 : dp + off / 8 < x ∧ 8 * (x - dp) + lo < len
        · have a1 : x = dp + (off / 8 + 1) ∨ (dp + (off / 8 + 1) < x ∧ 8 * (x - dp) + lo < len) := by omega
          have a2 : x = dp + off / 8 ∨ (dp + off / 8 < x ∧ 8 * (x - dp) + lo < len) := .inr hx2
          rw [if_pos a1, if_pos a2]
          have hb : ∀ y, y ≠ dp + off / 8 → auNext sp dp lo (off / 8) (auBody sp dp lo (off / 8) a) y = a y := by
            intro y hy
            rw [auNext, upd_other _ _ hy, auBody_other _ hy]
          rw [hb x hx0, hb (sp + (x - dp)) (by omega)]
          by_cases h3 : 8 * (x - dp + 1) + lo < len
          · rw [if_pos h3, if_pos h3, hb _ (by omega)]
          · rw [if_neg h3, if_neg h3]
        · rw [if_neg (by omega), if_neg (by omega), auNext, upd_other _ _ hx0, auBody_other _ hx0]
  · rw [if_neg hlt]
    refine ⟨_, by rw [count_last (by omega), hlo], ?_⟩
    intro x
    by_cases hx0 : x = dp + off / 8
    · subst hx0
      rw [if_pos (.inl rfl), if_neg (by omega), hbody, Nat.add_sub_cancel_left]
      exact BitVec.or_zero.symm
    · rw [if_neg (by omega), auBody_other _ hx0]

/-- In place, with an offset of whole bytes, everything accessed is erased. -/
theorem auLoopA_erases {n p len off c : Nat} (a : Arr) (h8 : off % 8 = 0)
    (ht : ∀ j, Touched off len j → p + j < n ∧ p + j < n) (hn : n < 2 ^ 61) :
    ∃ a', auLoopA n p p 0 len off c a = .ok (c + count off len, a') ∧ ∀ j, Touched off len j → a' (p + j) = 0 := by
  have z : ∀ (b : Arr) cb, auBody p p 0 cb b (p + cb) = 0 := by
    intro b cb
    have h0 : shr (0xFF : Byte) (8 - 0) = 0#8 := by decide
    have h1 : shl (0#8 : Byte) 0 = 0#8 := by decide
    rw [auBody_inplace, h0, BitVec.and_zero, h1]; rfl
  have z2 : ∀ x : Byte, shr x (8 - 0) = 0 := by
    intro x; apply byte_ext; intro i hi
    rw [shr_getLsbD, BitVec.getLsbD_of_ge _ (8 - 0 + i) (by omega)]; simp
  induction hm : len - off using Nat.strongRecOn generalizing off c a with
  | _ m ih =>
  rw [auLoopA_step a ht hn]
  by_cases hlt : off + 8 < len
  · rw [if_pos hlt]
    obtain ⟨a', e1, e2⟩ := ih (len - (off + 8)) (by omega) (off := off + 8) (c := c + min len (8 - 0) + 0)
      (auNext p p 0 (off / 8) (auBody p p 0 (off / 8) a)) (by omega)
      (fun j hj => ht j (touched_next hlt hj)) rfl
    obtain ⟨a2, f1, f2⟩ := auLoopA_frame (c := c + min len (8 - 0) + 0) (off := off + 8) (lo := 0)
      (auNext p p 0 (off / 8) (auBody p p 0 (off / 8) a)) (by omega)
      (fun j hj => ht j (touched_next hlt hj)) hn
    rw [e1] at f1
    simp only [Outcome.ok.injEq, Prod.mk.injEq, true_and] at f1
    subst f1
    refine ⟨a', ?_, ?_⟩
    · rw [e1, count_step hlt, h8]
      congr 2; omega
    · intro j hj
      by_cases hj0 : j = off / 8
      · subst hj0
        rw [f2 _ (by omega), auNext, upd_same, z, z2]; rfl
      · exact e2 j (by simp only [Touched] at *; omega)
  · rw [if_neg hlt]
    refine ⟨_, by rw [count_last (by omega), h8], ?_⟩
    intro j hj
    have : j = off / 8 := by simp only [Touched] at hj; omega
    rw [this, z]

end Uavcan.CopyBits
