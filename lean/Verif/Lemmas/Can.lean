import Verif.Model.Can
import Verif.Spec.CanFd

namespace Uavcan.Can
open Uavcan.Spec

theorem index_ok {α : Type} {a : List α} {i : Nat} (h : i < a.length) : index a i = .ok a[i] := by
  simp [index, List.getElem?_eq_getElem h]

theorem index_ub {α : Type} {a : List α} {i : Nat} (h : a.length ≤ i) : index a i = .ub .outOfBounds := by
  simp [index, List.getElem?_eq_none h]

theorem copyBytes_ok {m : Nat} (src : List Byte) (n i : Nat) (dst : Vector Byte m)
    (h1 : i + n ≤ src.length) (h2 : i + n ≤ m) :
    ∃ v, copyBytes src n i dst = .ok v ∧
      ∀ j (hj : j < m), v[j] = if i ≤ j ∧ j < i + n then src.getD j 0 else dst[j] := by
  induction n generalizing i dst with
  | zero =>
    refine ⟨dst, rfl, ?_⟩
    intro j hj; rw [if_neg (by omega)]
  | succ n ih =>
    have hi : i < src.length := by omega
    have hm : i < m := by omega
    obtain ⟨v, hv, hj⟩ := ih (i + 1) (dst.set i src[i]) (by omega) (by omega)
    refine ⟨v, ?_, ?_⟩
    · simp only [copyBytes, index_ok hi, Outcome.ok_bind, hm, dif_pos, hv]
    · intro j hjm
      rw [hj j hjm]
      by_cases hji : j = i
      · subst hji
        rw [if_neg (by omega), if_pos (by omega)]
        simp [hi]
      · rw [Vector.getElem_set_ne _ _ (by omega)]
        by_cases hc : i + 1 ≤ j ∧ j < i + 1 + n
        · rw [if_pos hc, if_pos (by omega)]
        · rw [if_neg hc, if_neg (by omega)]

theorem copyBytes_ub {m : Nat} (src : List Byte) (n i : Nat) (dst : Vector Byte m) (hn : 0 < n)
    (h : src.length < i + n ∨ m < i + n) : copyBytes src n i dst = .ub .outOfBounds := by
  induction n generalizing i dst with
  | zero => omega
  | succ n ih =>
    simp only [copyBytes]
    by_cases hi : i < src.length
    · rw [index_ok hi, Outcome.ok_bind]
      split
      · rename_i hm
        by_cases hn0 : n = 0
        · omega
        · exact ih _ _ (by omega) (by omega)
      · rfl
    · rw [index_ub (by omega), Outcome.ub_bind]

theorem equalBytes_ok {m : Nat} (a b : Vector Byte m) (n i : Nat) (h : i + n ≤ m) :
    ∃ r, equalBytes a b n i = .ok r ∧ (r = true ↔ ∀ j (hj : j < m), i ≤ j → j < i + n → a[j] = b[j]) := by
  induction n generalizing i with
  | zero => exact ⟨true, rfl, by simp; intros; omega⟩
  | succ n ih =>
    have hm : i < m := by omega
    simp only [equalBytes, hm, dif_pos]
    by_cases he : a[i] = b[i]
    · obtain ⟨r, hr, hh⟩ := ih (i + 1) (by omega)
      refine ⟨r, by simp [he, hr], ?_⟩
      rw [hh]
      constructor
      · intro hall j hj h1 h2
        by_cases hji : j = i
        · subst hji; exact he
        · exact hall j hj (by omega) (by omega)
      · intro hall j hj h1 h2; exact hall j hj (by omega) (by omega)
    · refine ⟨false, by simp [he], ?_⟩
      simp only [Bool.false_eq_true, false_iff]
      intro hall; exact he (hall i hm (by omega) (by omega))

theorem lengthToDlcTable_length : lengthToDlcTable.length = 65 := rfl

theorem lengthToDlc_eq {mtu n : Nat} (h : mtu ≤ 64) :
    lengthToDlc mtu n = .ok (lengthToDlcTable.getD (min n mtu) 0) := by
  unfold lengthToDlc
  split
  · have hl : mtu < lengthToDlcTable.length := by rw [lengthToDlcTable_length]; omega
    rw [index_ok hl, Nat.min_eq_right (by omega)]
    simp [hl]
  · have hl : n < lengthToDlcTable.length := by rw [lengthToDlcTable_length]; omega
    rw [index_ok hl, Nat.min_eq_left (by omega)]
    simp [hl]

/-- Every DLC value, valid or not, denotes a CAN FD length. -/
theorem dlcToLength_fd (dlc : Nat) : FdLength (dlcToLength dlc) := by
  by_cases h : dlc < 16
  · have : ∀ d : Fin 16, FdLength (dlcToLength d.val) := by decide
    exact this ⟨dlc, h⟩
  · have : dlcToLength dlc = 0 := by simp [dlcToLength, dlcToLengthTable]; omega
    rw [this]; left; omega

theorem dlcToLength_ge {dlc : Nat} (h : 16 ≤ dlc) : dlcToLength dlc = 0 := by
  simp [dlcToLength, dlcToLengthTable]; omega

theorem dlcToLength_le (dlc : Nat) : dlcToLength dlc ≤ 64 := by
  have := dlcToLength_fd dlc
  simp only [FdLength] at this; omega

/-- The table round trip on all 65 lengths. -/
theorem table_least : ∀ n : Fin 65, dlcToLength (lengthToDlcTable.getD n.val 0) ≥ n.val ∧
    lengthToDlcTable.getD n.val 0 < 16 ∧
    ∀ k : Fin 65, FdLength k.val → n.val ≤ k.val → dlcToLength (lengthToDlcTable.getD n.val 0) ≤ k.val := by
  decide +kernel

theorem fdLength_le {k : Nat} (h : FdLength k) : k ≤ 64 := by simp only [FdLength] at h; omega

theorem maskExt_getLsbD (i : Nat) : MaskExtID.getLsbD i = decide (i < 29) := by
  by_cases h : i < 32
  · have : ∀ k : Fin 32, MaskExtID.getLsbD k.val = decide (k.val < 29) := by decide
    exact this ⟨i, h⟩
  · rw [BitVec.getLsbD_of_ge _ _ (by omega)]; simp; omega

theorem maskFlags_getLsbD (fm : BitVec 8) (i : Nat) (h : i < 32) :
    (MaskIdWithFlags fm).getLsbD i = (decide (i < 29) || fm.getLsbD (i - 29)) := by
  simp only [MaskIdWithFlags, BitVec.getLsbD_or, maskExt_getLsbD, BitVec.getLsbD_shiftLeft,
    BitVec.getLsbD_setWidth, h, decide_true, Bool.true_and]
  by_cases h2 : i < 29
  · simp [h2]
  · have : decide (i - 29 < 32) = true := by simp; omega
    simp [h2]; omega

theorem and_mask_eq_iff (a b m : BitVec 32) :
    a &&& m = b &&& m ↔ ∀ i, i < 32 → m.getLsbD i = true → a.getLsbD i = b.getLsbD i := by
  constructor
  · intro h i hi hm
    have := congrArg (fun x => BitVec.getLsbD x i) h
    simpa [hm] using this
  · intro h
    apply BitVec.eq_of_getLsbD_eq
    intro i hi
    simp only [BitVec.getLsbD_and]
    by_cases hm : m.getLsbD i = true
    · rw [h i hi hm]
    · simp [hm]

theorem and_maskExt_toNat (a : BitVec 32) : (a &&& MaskExtID).toNat = canId29 a := by
  have : MaskExtID.toNat = 2 ^ 29 - 1 := by decide
  rw [BitVec.toNat_and, this, Nat.and_two_pow_sub_one_eq_mod]; rfl

end Uavcan.Can
