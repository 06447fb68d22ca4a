import Verif.Spec.BigEndian

/-! # Lemmas about numbers written by byte arrays -/

namespace Uavcan.Spec

theorem num_lt : ∀ l : List (BitVec 8), num l < 2 ^ (8 * l.length)
  | [] => by simp [num]
  | b :: l => by
    have h := num_lt l
    have hb : b.toNat < 2 ^ 8 := b.isLt
    have h8 : 8 * (b :: l).length = 8 + 8 * l.length := by simp only [List.length_cons]; omega
    rw [num, h8, Nat.pow_add]
    have := Nat.mul_le_mul_right (2 ^ (8 * l.length)) (show b.toNat + 1 ≤ 2 ^ 8 by omega)
    rw [Nat.add_mul, Nat.one_mul] at this
    omega

theorem num_testBit : ∀ (l : List (BitVec 8)) {i : Nat}, i < 8 * l.length →
    (num l).testBit i = (l.getD (l.length - 1 - i / 8) 0).getLsbD (i % 8)
  | [], i, h => by simp at h
  | b :: l, i, h => by
    rw [num, Nat.mul_comm, Nat.testBit_two_pow_mul_add _ (num_lt l)]
    simp only [List.length_cons] at h ⊢
    by_cases hi : i < 8 * l.length
    · rw [if_pos hi, num_testBit l hi]
      have : l.length + 1 - 1 - i / 8 = (l.length - 1 - i / 8) + 1 := by omega
      rw [this, List.getD_cons_succ]
    · have h1 : l.length + 1 - 1 - i / 8 = 0 := by omega
      rw [if_neg hi, h1, List.getD_cons_zero, BitVec.getLsbD]
      congr 1
      omega

theorem num_testBit_ge (l : List (BitVec 8)) {i : Nat} (h : 8 * l.length ≤ i) : (num l).testBit i = false :=
  Nat.testBit_lt_two_pow (Nat.lt_of_lt_of_le (num_lt l) (Nat.pow_le_pow_right (by decide) h))

theorem part_length {q m : Nat} {l : List (BitVec 8)} (h : m ≤ l.length) : (part q m l).length = m - q := by
  simp [part]; omega

theorem part_getD {q m k : Nat} {l : List (BitVec 8)} (h : q + k < m) : (part q m l).getD k 0 = l.getD (q + k) 0 := by
  simp only [part, List.getD_eq_getElem?_getD, List.getElem?_drop, List.getElem?_take, h, if_true]

/-- Bits of the right-hand side of `ShiftedLeft`. -/
theorem shl_testBit {n r s d i : Nat} (hr : r ≤ n) :
    (s * 2 ^ r % 2 ^ n + d % 2 ^ r).testBit i =
      if i < r then d.testBit i else (decide (i < n) && s.testBit (i - r)) := by
  have h1 : s * 2 ^ r % 2 ^ n = 2 ^ r * (s % 2 ^ (n - r)) := by
    rw [Nat.mul_comm s, ← Nat.mul_mod_mul_left, ← Nat.pow_add]; congr 2; omega
  rw [h1, Nat.testBit_two_pow_mul_add _ (Nat.mod_lt _ (Nat.two_pow_pos r)), Nat.testBit_mod_two_pow, Nat.testBit_mod_two_pow]
  by_cases h : i < r
  · simp [h]
  · simp only [h, if_false]
    congr 1
    exact decide_eq_decide.2 (by omega)

/-- Bits of the right-hand side of `ShiftedRight`. -/
theorem shr_testBit {n r s d i : Nat} (hr : r ≤ n) (hs : s < 2 ^ n) :
    (s / 2 ^ r + d / 2 ^ (n - r) * 2 ^ (n - r)).testBit i =
      if i < n - r then s.testBit (i + r) else d.testBit i := by
  have h1 : s / 2 ^ r < 2 ^ (n - r) := by
    rw [Nat.div_lt_iff_lt_mul (Nat.two_pow_pos r), ← Nat.pow_add]; rwa [Nat.sub_add_cancel hr]
  rw [Nat.add_comm, Nat.mul_comm, Nat.testBit_two_pow_mul_add _ h1, Nat.testBit_div_two_pow, Nat.testBit_div_two_pow]
  by_cases h : i < n - r
  · simp only [h, if_true]
  · simp only [h, if_false]; congr 1; omega

/-- A shift to the left, byte by byte: each byte gets the low bits of the same byte of the source and the high bits of the next. -/
theorem shiftedLeft_iff {r n : Nat} {s d d' : List (BitVec 8)} (hr : r < 8) (hn : 0 < n) (hs : s.length = n) (hd : d.length = n)
    (hd' : d'.length = n) :
    ShiftedLeft r s d d' ↔ ∀ k b, k < n → b < 8 → (d'.getD k 0).getLsbD b =
      if r ≤ b then (s.getD k 0).getLsbD (b - r)
      else if k + 1 < n then (s.getD (k + 1) 0).getLsbD (8 - r + b)
      else (d.getD k 0).getLsbD b := by
  have key : ∀ k b, k < n → b < 8 →
      (num s * 2 ^ r % 2 ^ (8 * d.length) + num d % 2 ^ r).testBit (8 * (n - 1 - k) + b) =
      if r ≤ b then (s.getD k 0).getLsbD (b - r)
      else if k + 1 < n then (s.getD (k + 1) 0).getLsbD (8 - r + b)
      else (d.getD k 0).getLsbD b := by
    intro k b hk hb
    rw [shl_testBit (by omega)]
    by_cases h1 : r ≤ b
    · rw [if_neg (by omega), if_pos h1, num_testBit s (by omega), show decide (8 * (n - 1 - k) + b < 8 * d.length) = true by
        simp; omega, Bool.true_and, hs, show n - 1 - (8 * (n - 1 - k) + b - r) / 8 = k by omega,
        show (8 * (n - 1 - k) + b - r) % 8 = b - r by omega]
    · rw [if_neg h1]
      by_cases h2 : k + 1 < n
      · rw [if_pos h2, if_neg (by omega), num_testBit s (by omega), show decide (8 * (n - 1 - k) + b < 8 * d.length) = true by
          simp; omega, Bool.true_and, hs, show n - 1 - (8 * (n - 1 - k) + b - r) / 8 = k + 1 by omega,
          show (8 * (n - 1 - k) + b - r) % 8 = 8 - r + b by omega]
      · rw [if_neg h2, if_pos (by omega), num_testBit d (by omega), hd, show n - 1 - (8 * (n - 1 - k) + b) / 8 = k by omega,
          show (8 * (n - 1 - k) + b) % 8 = b by omega]
  have hbit : ∀ k b, k < n → b < 8 → (num d').testBit (8 * (n - 1 - k) + b) = (d'.getD k 0).getLsbD b := by
    intro k b hk hb
    rw [num_testBit d' (by omega), hd', show n - 1 - (8 * (n - 1 - k) + b) / 8 = k by omega,
      show (8 * (n - 1 - k) + b) % 8 = b by omega]
  constructor
  · intro h k b hk hb
    rw [← key k b hk hb, ← hbit k b hk hb, h]
  · intro h
    refine Nat.eq_of_testBit_eq fun i => ?_
    by_cases hi : i < 8 * n
    · have h1 := key (n - 1 - i / 8) (i % 8) (by omega) (by omega)
      have h2 := hbit (n - 1 - i / 8) (i % 8) (by omega) (by omega)
      rw [show 8 * (n - 1 - (n - 1 - i / 8)) + i % 8 = i by omega] at h1 h2
      rw [h1, h2, h _ _ (by omega) (by omega)]
    · rw [num_testBit_ge _ (by omega), shl_testBit (by omega), if_neg (by omega)]
      simp; omega

/-- A shift to the right, byte by byte: each byte gets the high bits of the same byte of the source and the low bits of the one before. -/
theorem shiftedRight_iff {r n : Nat} {s d d' : List (BitVec 8)} (hr : r < 8) (hn : 0 < n) (hs : s.length = n) (hd : d.length = n)
    (hd' : d'.length = n) :
    ShiftedRight r s d d' ↔ ∀ k b, k < n → b < 8 → (d'.getD k 0).getLsbD b =
      if r + b < 8 then (s.getD k 0).getLsbD (r + b)
      else if 0 < k then (s.getD (k - 1) 0).getLsbD (r + b - 8)
      else (d.getD k 0).getLsbD b := by
  have key : ∀ k b, k < n → b < 8 →
      (num s / 2 ^ r + num d / 2 ^ (8 * d.length - r) * 2 ^ (8 * d.length - r)).testBit (8 * (n - 1 - k) + b) =
      if r + b < 8 then (s.getD k 0).getLsbD (r + b)
      else if 0 < k then (s.getD (k - 1) 0).getLsbD (r + b - 8)
      else (d.getD k 0).getLsbD b := by
    intro k b hk hb
    have hlt := num_lt s
    rw [hs, ← hd] at hlt
    rw [shr_testBit (by omega) hlt]
    by_cases h1 : r + b < 8
    · rw [if_pos (by omega), if_pos h1, num_testBit s (by omega), hs,
        show n - 1 - (8 * (n - 1 - k) + b + r) / 8 = k by omega, show (8 * (n - 1 - k) + b + r) % 8 = r + b by omega]
    · rw [if_neg h1]
      by_cases h2 : 0 < k
      · rw [if_pos h2, if_pos (by omega), num_testBit s (by omega), hs,
          show n - 1 - (8 * (n - 1 - k) + b + r) / 8 = k - 1 by omega,
          show (8 * (n - 1 - k) + b + r) % 8 = r + b - 8 by omega]
      · rw [if_neg h2, if_neg (by omega), num_testBit d (by omega), hd, show n - 1 - (8 * (n - 1 - k) + b) / 8 = k by omega,
          show (8 * (n - 1 - k) + b) % 8 = b by omega]
  have hbit : ∀ k b, k < n → b < 8 → (num d').testBit (8 * (n - 1 - k) + b) = (d'.getD k 0).getLsbD b := by
    intro k b hk hb
    rw [num_testBit d' (by omega), hd', show n - 1 - (8 * (n - 1 - k) + b) / 8 = k by omega,
      show (8 * (n - 1 - k) + b) % 8 = b by omega]
  constructor
  · intro h k b hk hb
    rw [← key k b hk hb, ← hbit k b hk hb, h]
  · intro h
    refine Nat.eq_of_testBit_eq fun i => ?_
    by_cases hi : i < 8 * n
    · have h1 := key (n - 1 - i / 8) (i % 8) (by omega) (by omega)
      have h2 := hbit (n - 1 - i / 8) (i % 8) (by omega) (by omega)
      rw [show 8 * (n - 1 - (n - 1 - i / 8)) + i % 8 = i by omega] at h1 h2
      rw [h1, h2, h _ _ (by omega) (by omega)]
    · have hlt := num_lt s
      rw [hs, ← hd] at hlt
      rw [num_testBit_ge _ (by omega), shr_testBit (by omega) hlt, if_neg (by omega), num_testBit_ge _ (by omega)]

end Uavcan.Spec
