import Verif.Core.CInt
import Verif.Spec.Clamp

namespace Uavcan

theorem pow_pos' (n : Nat) : (0 : Int) < 2 ^ n := Int.pow_pos (by decide)

theorem two_pow_succ {w : Nat} (h : 1 ≤ w) : (2 : Int) ^ w = 2 * 2 ^ (w - 1) := by
  obtain ⟨n, rfl⟩ : ∃ n, w = n + 1 := ⟨w - 1, by omega⟩
  rw [Nat.add_sub_cancel, Int.pow_succ]; omega

theorem pow_le_pow_right' {m n : Nat} (h : m ≤ n) : (2 : Int) ^ m ≤ 2 ^ n := by
  obtain ⟨k, rfl⟩ := Nat.exists_eq_add_of_le h
  rw [Int.pow_add]
  have h1 := pow_pos' m
  have h2 := pow_pos' k
  have : (2:Int)^m * 1 ≤ 2^m * 2^k := Int.mul_le_mul_of_nonneg_left (by omega) (by omega)
  omega

/-- What the arithmetic of the model needs to know about a width `w` and its promoted width. -/
theorem promW_facts {w : Nat} (hw : 2 ≤ w) :
    (2 : Int) ≤ 2 ^ (w - 1) ∧ (2 : Int) ^ (w - 1) ≤ 2 ^ (promW w - 1) ∧
    (w < 32 → 2 * (2 : Int) ^ (w - 1) ≤ 2 ^ (promW w - 1)) ∧ (32 ≤ w → promW w = w) := by
  refine ⟨?_, ?_, ?_, ?_⟩
  · have := pow_le_pow_right' (m := 1) (n := w - 1) (by omega); simpa using this
  · exact pow_le_pow_right' (by simp [promW, intWidth]; omega)
  · intro h
    have h1 : (2 : Int) ^ w = 2 * 2 ^ (w - 1) := two_pow_succ (by omega)
    rw [← h1]
    exact pow_le_pow_right' (by simp [promW, intWidth]; omega)
  · intro h; simp [promW, intWidth]; omega

theorem castS_of_inS {w : Nat} (hw : 1 ≤ w) {x : Int} (hx : InS w x) : castS w x = x := by
  obtain ⟨h1, h2⟩ := hx
  have hp := pow_pos' (w - 1)
  have hd : (2 : Int) ^ w = 2 * 2 ^ (w - 1) := two_pow_succ hw
  simp only [intMin, intMax] at h1 h2
  unfold castS
  have hc : ((2 ^ w : Nat) : Int) = 2 ^ w := by simp
  rw [Int.bmod_eq_of_le]
  · rw [hc, hd]; omega
  · rw [hc, hd]; omega

theorem castU_of_inU {w : Nat} {x : Int} (hx : InU w x) : castU w x = x := by
  obtain ⟨h1, h2⟩ := hx
  simp only [uintMax] at h2
  exact Int.emod_eq_of_lt h1 (by omega)

theorem castU_inU (w : Nat) (x : Int) : InU w (castU w x) := by
  have hp := pow_pos' w
  refine ⟨Int.emod_nonneg _ (by omega), ?_⟩
  have := Int.emod_lt_of_pos x hp
  simp only [uintMax, castU]; omega

theorem castU_neg {w : Nat} {x : Int} (h1 : x < 0) (h2 : -(2 ^ w) ≤ x) : castU w x = x + 2 ^ w := by
  unfold castU
  rw [← Int.add_emod_right]
  exact Int.emod_eq_of_lt (by omega) (by omega)

theorem castS_inS {w : Nat} (hw : 1 ≤ w) (x : Int) : InS w (castS w x) := by
  have hd : (2 : Int) ^ w = 2 * 2 ^ (w - 1) := two_pow_succ hw
  have hp := pow_pos' (w - 1)
  have hc : ((2 ^ w : Nat) : Int) = 2 ^ w := by simp
  have hn : 0 < (2 ^ w : Nat) := Nat.pow_pos (by decide)
  have h1 := Int.le_bmod (x := x) hn
  have h2 := Int.bmod_lt (x := x) hn
  rw [hc, hd] at h1 h2
  simp only [InS, castS, intMin, intMax]
  omega

end Uavcan
