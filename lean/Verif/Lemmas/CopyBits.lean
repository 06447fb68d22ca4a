import Verif.Model.CopyBits
import Verif.Spec.Bits

namespace Uavcan.CopyBits
open Spec

theorem rd_ok {a : List Byte} {i : Nat} (h : i < a.length) : rd a i = .ok (a.getD i 0) := by
  simp [rd, h]

theorem rd_ub {a : List Byte} {i : Nat} (h : a.length ≤ i) : rd a i = .ub .outOfBounds := by
  simp [rd]; omega

theorem wr_ok {a : List Byte} {i : Nat} (v : Byte) (h : i < a.length) : wr a i v = .ok (a.set i v) := by
  simp [wr, h]

theorem wr_ub {a : List Byte} {i : Nat} (v : Byte) (h : a.length ≤ i) : wr a i v = .ub .outOfBounds := by
  simp [wr]; omega

theorem getD_set (a : List Byte) (i j : Nat) (v : Byte) :
    (a.set i v).getD j 0 = if j = i ∧ i < a.length then v else a.getD j 0 := by
  simp only [List.getD_eq_getElem?_getD, List.getElem?_set]
  by_cases h : i = j
  · subst h
    by_cases h2 : i < a.length
    · simp [h2]
    · simp [h2]
  · simp [h, Ne.symm h]

theorem shl_getLsbD (b : Byte) (n i : Nat) (hn : n ≤ 8) :
    (shl b n).getLsbD i = (decide (i < 8) && (decide (n ≤ i) && b.getLsbD (i - n))) := by
  simp only [shl, BitVec.getLsbD_setWidth, BitVec.getLsbD_shiftLeft]
  by_cases h : i < 8
  · have h1 : decide (i < 32) = true := by simp; omega
    have h2 : decide (i - n < 32) = true := by simp; omega
    simp only [h, h1, h2, decide_true, Bool.true_and]
    by_cases h3 : i < n
    · have : ¬ n ≤ i := by omega
      simp [h3, this]
    · have : n ≤ i := by omega
      simp [h3, this]
  · simp [h]

theorem shr_getLsbD (b : Byte) (n i : Nat) :
    (shr b n).getLsbD i = (decide (i < 8) && b.getLsbD (n + i)) := by
  simp only [shr, BitVec.getLsbD_setWidth, BitVec.getLsbD_ushiftRight]
  by_cases h : i < 8
  · by_cases h2 : n + i < 32
    · simp [h2]
    · have : b.getLsbD (n + i) = false := BitVec.getLsbD_of_ge _ _ (by omega)
      simp [this]
  · simp [h]

theorem ff_getLsbD (i : Nat) : (0xFF : Byte).getLsbD i = decide (i < 8) := by
  by_cases h : i < 8
  · have : ∀ k : Fin 8, (0xFF : Byte).getLsbD k.val = decide (k.val < 8) := by decide
    exact this ⟨i, h⟩
  · rw [BitVec.getLsbD_of_ge _ _ (by omega)]; simp [h]

theorem byte_ext {a b : Byte} (h : ∀ i, i < 8 → a.getLsbD i = b.getLsbD i) : a = b :=
  BitVec.eq_of_getLsbD_eq h


/-- Number of passes through the loop. -/
def passes (off len : Nat) : Nat := max 1 ((len - off + 7) / 8)

/-- The value both functions return. -/
def count (off len : Nat) : Nat :=
  passes off len * min len (8 - off % 8) + (passes off len - 1) * (off % 8)

theorem passes_step {off len : Nat} (h : off + 8 < len) : passes off len = passes (off + 8) len + 1 := by
  simp only [passes]; omega

theorem passes_last {off len : Nat} (h : len ≤ off + 8) : passes off len = 1 := by
  simp only [passes]; omega

theorem count_step {off len : Nat} (h : off + 8 < len) :
    count off len = min len (8 - off % 8) + off % 8 + count (off + 8) len := by
  have h1 : (off + 8) % 8 = off % 8 := by omega
  obtain ⟨n, hn⟩ : ∃ n, passes (off + 8) len = n + 1 := by
    refine ⟨passes (off + 8) len - 1, ?_⟩
    simp only [passes]; omega
  simp only [count, h1, passes_step h, hn, Nat.add_sub_cancel]
  rw [Nat.add_mul (n + 1) 1, Nat.add_mul n 1 (off % 8)]
  omega

theorem count_last {off len : Nat} (h : len ≤ off + 8) : count off len = min len (8 - off % 8) := by
  simp [count, passes_last h]

/-! ## Unaligned to aligned -/

/-- The byte stored by the statements 336–337. -/
def uaByte (lo : Nat) (d s : Byte) : Byte := (d &&& shl 0xFF (8 - lo)) ||| shr s lo

theorem uaLoop_unfold {src dst : List Byte} {lo len off c : Nat} (h1 : off / 8 < src.length)
    (h2 : off / 8 < dst.length) :
    uaLoop src lo len off c dst =
      if 2 ^ 64 ≤ off + 8 then .ub .sizeWrap
      else if off + 8 < len then do
        let s ← rd src ((off + 8) / 8)
        let d ← wr (dst.set (off / 8) (uaByte lo (dst.getD (off / 8) 0) (src.getD (off / 8) 0))) ((off + 8) / 8)
          (shl s (8 - lo))
        uaLoop src lo len (off + 8) (c + min len (8 - lo) + lo) d
      else .ok (c + min len (8 - lo), dst.set (off / 8) (uaByte lo (dst.getD (off / 8) 0) (src.getD (off / 8) 0))) := by
  conv => lhs; unfold uaLoop
  simp only [rd_ok h1, rd_ok h2, wr_ok _ h2, Outcome.ok_bind]
  rw [rd_ok (by simpa using h2)]
  simp only [Outcome.ok_bind]
  rw [wr_ok _ (by simpa using h2)]
  simp only [Outcome.ok_bind, List.set_set, uaByte, Outcome.pure_eq, getD_set, h2, and_self, if_true]

theorem uaLoop_ok {src dst : List Byte} {lo len off c : Nat} (hlo : off % 8 = lo)
    (ht : ∀ j, Touched off len j → j < src.length ∧ j < dst.length) (hs : dst.length < 2 ^ 61) :
    ∃ dst', uaLoop src lo len off c dst = .ok (c + count off len, dst') ∧ dst'.length = dst.length ∧
      ∀ j, dst'.getD j 0 =
        if j = off / 8 then uaByte lo (dst.getD j 0) (src.getD j 0)
        else if off / 8 < j ∧ 8 * j + lo < len then uaByte lo (shl (src.getD j 0) (8 - lo)) (src.getD j 0)
        else dst.getD j 0 := by
  induction hn : len - off using Nat.strongRecOn generalizing off c dst with
  | _ n ih =>
  obtain ⟨h1, h2⟩ := ht (off / 8) (.inl rfl)
  rw [uaLoop_unfold h1 h2, if_neg (by omega)]
  by_cases hlt : off + 8 < len
  · rw [if_pos hlt]
    have ht1 : Touched off len (off / 8 + 1) := .inr ⟨by omega, by omega⟩
    obtain ⟨h3, h4⟩ := ht _ ht1
    have he : (off + 8) / 8 = off / 8 + 1 := by omega
    rw [he, rd_ok h3]
    simp only [Outcome.ok_bind]
    rw [wr_ok _ (by simpa using h4)]
    simp only [Outcome.ok_bind]
    obtain ⟨dst', e1, e2, e3⟩ := ih (len - (off + 8)) (by omega) (off := off + 8) (c := c + min len (8 - lo) + lo)
      (dst := (dst.set (off / 8) (uaByte lo (dst.getD (off / 8) 0) (src.getD (off / 8) 0))).set (off / 8 + 1)
        (shl (src.getD (off / 8 + 1) 0) (8 - lo)))
      (by omega)
      (by
        intro j hj
        have : Touched off len j := by
          simp only [Touched] at hj ⊢; omega
        simpa using ht j this)
      (by simpa using hs) rfl
    refine ⟨dst', ?_, by simpa using e2, ?_⟩
    · rw [e1, count_step hlt, hlo]
      congr 2; omega
    · intro j
      rw [e3 j, he, getD_set, getD_set]
      by_cases hj1 : j = off / 8
      · subst hj1
        rw [if_neg (by omega), if_neg (by omega), if_neg (by omega), if_pos ⟨rfl, h2⟩, if_pos rfl]
      · by_cases hj2 : j = off / 8 + 1
        · subst hj2
          rw [if_pos rfl, if_pos ⟨rfl, by simpa using h4⟩, if_neg (by omega), if_pos (by omega)]
        · rw [if_neg hj2, if_neg hj1]
          by_cases hj3 : off / 8 < j ∧ 8 * j + lo < len
          · rw [if_pos (by omega), if_pos hj3]
          · rw [if_neg (by omega), if_neg hj3, if_neg (by simp [hj2]), if_neg (by simp [hj1])]
  · rw [if_neg hlt]
    refine ⟨_, by rw [count_last (by omega), hlo], by simp, ?_⟩
    intro j
    rw [getD_set]
    by_cases hj1 : j = off / 8
    · subst hj1; rw [if_pos ⟨rfl, h2⟩, if_pos rfl]
    · rw [if_neg (by simp [hj1]), if_neg hj1, if_neg (by omega)]

theorem uaLoop_ub {src dst : List Byte} {lo len off c : Nat} (hlo : off % 8 = lo)
    {j : Nat} (hj : Touched off len j) (hb : src.length ≤ j ∨ dst.length ≤ j) (hs : dst.length < 2 ^ 61) :
    uaLoop src lo len off c dst = .ub .outOfBounds := by
  induction hn : len - off using Nat.strongRecOn generalizing off c dst with
  | _ n ih =>
  by_cases h2 : off / 8 < dst.length
  · by_cases h1 : off / 8 < src.length
    · rw [uaLoop_unfold h1 h2, if_neg (by omega)]
      have hlt : off + 8 < len := by simp only [Touched] at hj; omega
      rw [if_pos hlt]
      have he : (off + 8) / 8 = off / 8 + 1 := by omega
      rw [he]
      by_cases h3 : off / 8 + 1 < src.length
      · rw [rd_ok h3]
        simp only [Outcome.ok_bind]
        by_cases h4 : off / 8 + 1 < dst.length
        · rw [wr_ok _ (by simpa using h4)]
          simp only [Outcome.ok_bind]
          refine ih (len - (off + 8)) (by omega) (by omega) ?_ (by simpa using hb) (by simpa using hs) rfl
          simp only [Touched] at hj ⊢; omega
        · rw [wr_ub _ (by simp only [List.length_set]; omega)]; rfl
      · rw [rd_ub (by omega)]; rfl
    · unfold uaLoop
      simp only [rd_ok h2, wr_ok _ h2, Outcome.ok_bind]
      rw [rd_ub (by omega)]; rfl
  · unfold uaLoop
    simp only [rd_ub (a := dst) (i := off / 8) (by omega), Outcome.ub_bind]

/-! ## Aligned to unaligned -/

/-- The byte stored by the statements 382–383. -/
def auByte (lo : Nat) (d s : Byte) : Byte := (d &&& shr 0xFF (8 - lo)) ||| shl s lo

theorem auLoop_unfold {src dst : List Byte} {lo len off c : Nat} (h1 : off / 8 < src.length)
    (h2 : off / 8 < dst.length) :
    auLoop src lo len off c dst =
      if 2 ^ 64 ≤ off + 8 then .ub .sizeWrap
      else if off + 8 < len then do
        let s ← rd src ((off + 8) / 8)
        auLoop src lo len (off + 8) (c + min len (8 - lo) + lo)
          (dst.set (off / 8) (auByte lo (dst.getD (off / 8) 0) (src.getD (off / 8) 0) ||| shr s (8 - lo)))
      else .ok (c + min len (8 - lo), dst.set (off / 8) (auByte lo (dst.getD (off / 8) 0) (src.getD (off / 8) 0))) := by
  conv => lhs; unfold auLoop
  simp only [rd_ok h1, rd_ok h2, wr_ok _ h2, Outcome.ok_bind]
  rw [rd_ok (by simpa using h2)]
  simp only [Outcome.ok_bind]
  rw [wr_ok _ (by simpa using h2)]
  simp only [Outcome.ok_bind, List.set_set, Outcome.pure_eq, getD_set, h2, and_self, if_true]
  split
  · rfl
  · split
    · congr 1
      funext s
      rw [rd_ok (by simpa using h2), Outcome.ok_bind, wr_ok _ (by simpa using h2)]
      simp only [Outcome.ok_bind, List.set_set, getD_set, h2, and_self, if_true, auByte]
    · rfl

theorem auLoop_ok {src dst : List Byte} {lo len off c : Nat} (hlo : off % 8 = lo)
    (ht : ∀ j, Touched off len j → j < src.length ∧ j < dst.length) (hs : dst.length < 2 ^ 61) :
    ∃ dst', auLoop src lo len off c dst = .ok (c + count off len, dst') ∧ dst'.length = dst.length ∧
      ∀ j, dst'.getD j 0 =
        if j = off / 8 ∨ (off / 8 < j ∧ 8 * j + lo < len) then
          auByte lo (dst.getD j 0) (src.getD j 0) |||
            (if 8 * (j + 1) + lo < len then shr (src.getD (j + 1) 0) (8 - lo) else 0)
        else dst.getD j 0 := by
  induction hn : len - off using Nat.strongRecOn generalizing off c dst with
  | _ n ih =>
  obtain ⟨h1, h2⟩ := ht (off / 8) (.inl rfl)
  rw [auLoop_unfold h1 h2, if_neg (by omega)]
  by_cases hlt : off + 8 < len
  · rw [if_pos hlt]
    have ht1 : Touched off len (off / 8 + 1) := .inr ⟨by omega, by omega⟩
    obtain ⟨h3, h4⟩ := ht _ ht1
    have he : (off + 8) / 8 = off / 8 + 1 := by omega
    rw [he, rd_ok h3]
    simp only [Outcome.ok_bind]
    obtain ⟨dst', e1, e2, e3⟩ := ih (len - (off + 8)) (by omega) (off := off + 8) (c := c + min len (8 - lo) + lo)
      (dst := dst.set (off / 8) (auByte lo (dst.getD (off / 8) 0) (src.getD (off / 8) 0) |||
        shr (src.getD (off / 8 + 1) 0) (8 - lo)))
      (by omega)
      (by
        intro j hj
        have : Touched off len j := by
          simp only [Touched] at hj ⊢; omega
        simpa using ht j this)
      (by simpa using hs) rfl
    refine ⟨dst', ?_, by simpa using e2, ?_⟩
    · rw [e1, count_step hlt, hlo]
      congr 2; omega
    · intro j
      rw [e3 j, he, getD_set]
      by_cases hj1 : j = off / 8
      · subst hj1
        rw [if_neg (by omega), if_pos ⟨rfl, h2⟩, if_pos (.inl rfl), if_pos (by omega)]
      · have hx : ¬ (j = off / 8 ∧ off / 8 < dst.length) := by simp [hj1]
        rw [if_neg hx]
        by_cases hj3 : off / 8 < j ∧ 8 * j + lo < len
        · have a1 : j = off / 8 + 1 ∨ (off / 8 + 1 < j ∧ 8 * j + lo < len) := by omega
          have a2 : j = off / 8 ∨ (off / 8 < j ∧ 8 * j + lo < len) := by omega
          rw [if_pos a1, if_pos a2]
        · have a1 : ¬ (j = off / 8 + 1 ∨ (off / 8 + 1 < j ∧ 8 * j + lo < len)) := by omega
          have a2 : ¬ (j = off / 8 ∨ (off / 8 < j ∧ 8 * j + lo < len)) := by omega
          rw [if_neg a1, if_neg a2]
  · rw [if_neg hlt]
    refine ⟨_, by rw [count_last (by omega), hlo], by simp, ?_⟩
    intro j
    rw [getD_set]
    by_cases hj1 : j = off / 8
    · subst hj1
      rw [if_pos ⟨rfl, h2⟩, if_pos (.inl rfl), if_neg (by omega)]
      simp
    · rw [if_neg (by simp [hj1]), if_neg (by omega)]

theorem auLoop_ub {src dst : List Byte} {lo len off c : Nat} (hlo : off % 8 = lo)
    {j : Nat} (hj : Touched off len j) (hb : src.length ≤ j ∨ dst.length ≤ j) (hs : dst.length < 2 ^ 61) :
    auLoop src lo len off c dst = .ub .outOfBounds := by
  induction hn : len - off using Nat.strongRecOn generalizing off c dst with
  | _ n ih =>
  by_cases h2 : off / 8 < dst.length
  · by_cases h1 : off / 8 < src.length
    · rw [auLoop_unfold h1 h2, if_neg (by omega)]
      have hlt : off + 8 < len := by simp only [Touched] at hj; omega
      rw [if_pos hlt]
      have he : (off + 8) / 8 = off / 8 + 1 := by omega
      rw [he]
      by_cases h3 : off / 8 + 1 < src.length
      · rw [rd_ok h3]
        simp only [Outcome.ok_bind]
        refine ih (len - (off + 8)) (by omega) (by omega) ?_ (by simpa using hb) (by simpa using hs) rfl
        simp only [Touched] at hj ⊢; omega
      · rw [rd_ub (by omega)]; rfl
    · unfold auLoop
      simp only [rd_ok h2, wr_ok _ h2, Outcome.ok_bind]
      rw [rd_ub (by omega)]; rfl
  · unfold auLoop
    simp only [rd_ub (a := dst) (i := off / 8) (by omega), Outcome.ub_bind]

end Uavcan.CopyBits
