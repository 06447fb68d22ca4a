import Verif.Model.Registers
import Verif.Spec.Registers

/-!
# Lemmas: fields of registers
-/

namespace Uavcan.Registers
open Uavcan.Spec

/-- What makes the macros of a field work: a mask of `width` bits from `shift` on, within the register, and a macro of the type
of the register. -/
structure Field.Good (bytes : Nat) (f : Field) : Prop where
  mask : f.mask = (2 ^ f.width - 1) * 2 ^ f.shift
  width : 0 < f.width
  fits : f.shift + f.width ≤ 8 * bytes
  cast : f.cast = 8 * bytes
  bytes : 8 * bytes ≤ 32

/-- `Good` as a check. -/
def Field.goodB (bytes : Nat) (f : Field) : Bool :=
  f.mask == (2 ^ f.width - 1) * 2 ^ f.shift && Nat.ble 1 f.width && Nat.ble (f.shift + f.width) (8 * bytes) &&
    f.cast == 8 * bytes && Nat.ble (8 * bytes) 32

theorem Field.good_of_goodB {bytes : Nat} {f : Field} (h : f.goodB bytes = true) : f.Good bytes := by
  simp only [Field.goodB, Bool.and_eq_true, beq_iff_eq, Nat.ble_eq] at h
  obtain ⟨⟨⟨⟨h1, h2⟩, h3⟩, h4⟩, h5⟩ := h
  exact ⟨h1, h2, h3, h4, h5⟩

/-- Two fields have no bit in common. -/
def Field.clear (f g : Field) : Bool :=
  !(f.elem == g.elem) || Nat.ble (f.shift + f.width) g.shift || Nat.ble (g.shift + g.width) f.shift

/-- Every two fields of the list have no bit in common. -/
def clearAll : List Field → Bool
  | [] => true
  | f :: fs => fs.all f.clear && clearAll fs

theorem Field.clear_symm {f g : Field} (h : f.clear g = true) : g.clear f = true := by
  simp only [Field.clear, Bool.or_eq_true, Bool.not_eq_true', beq_eq_false_iff_ne, Nat.ble_eq, ne_eq] at h ⊢
  rcases h with (h | h) | h
  · exact Or.inl (Or.inl fun e => h e.symm)
  · exact Or.inr h
  · exact Or.inl (Or.inr h)

theorem clear_of_clearAll {fs : List Field} (h : clearAll fs = true) {i j : Nat} (hi : i < fs.length) (hj : j < fs.length)
    (hne : i ≠ j) : fs[i].clear fs[j] = true := by
  induction fs generalizing i j with
  | nil => exact absurd hi (Nat.not_lt_zero _)
  | cons f fs ih =>
    simp only [clearAll, Bool.and_eq_true, List.all_eq_true] at h
    cases i with
    | zero =>
      cases j with
      | zero => exact absurd rfl hne
      | succ j => exact h.1 _ (List.getElem_mem _)
    | succ i =>
      cases j with
      | zero => exact Field.clear_symm (h.1 _ (List.getElem_mem _))
      | succ j =>
        exact ih h.2 (Nat.lt_of_succ_lt_succ hi) (Nat.lt_of_succ_lt_succ hj) (fun e => hne (by rw [e]))

variable {bytes : Nat} {f g : Field}

theorem mask_bit (h : f.Good bytes) (i : Nat) :
    (BitVec.ofNat 32 f.mask).getLsbD i = decide (f.shift ≤ i ∧ i < f.shift + f.width) := by
  have := h.fits; have := h.bytes
  rw [BitVec.getLsbD_ofNat, h.mask, Nat.testBit_mul_two_pow, Nat.testBit_two_pow_sub_one]
  by_cases h1 : f.shift ≤ i <;> by_cases h2 : i < f.shift + f.width <;> by_cases h3 : i < 32 <;>
    simp [h1, h2, h3] <;> omega

theorem put_bit (h : f.Good bytes) (x : BitVec 32) (i : Nat) :
    (f.put x).getLsbD i = (decide (f.shift ≤ i ∧ i < f.shift + f.width) && x.getLsbD (i - f.shift)) := by
  have := h.fits; have := h.bytes; have := h.cast
  simp only [Field.put, BitVec.getLsbD_and, mask_bit h, BitVec.getLsbD_setWidth, BitVec.getLsbD_shiftLeft]
  by_cases h1 : f.shift ≤ i <;> by_cases h2 : i < f.shift + f.width
  · have a : i < 32 := by omega
    have b : i < f.cast := by omega
    have c : ¬ i < f.shift := by omega
    have d : i - f.shift < f.cast := by omega
    simp [h1, h2, a, b, c, d]
  all_goals simp [h1, h2]

theorem set_bit (h : f.Good bytes) (x r : BitVec 32) (i : Nat) :
    (f.set x r).getLsbD i =
      if f.shift ≤ i ∧ i < f.shift + f.width then x.getLsbD (i - f.shift) else r.getLsbD i := by
  have := h.fits; have := h.bytes
  simp only [Field.set, BitVec.getLsbD_or, BitVec.getLsbD_and, BitVec.getLsbD_not, mask_bit h, put_bit h]
  by_cases h1 : f.shift ≤ i ∧ i < f.shift + f.width
  · simp [h1]
  · by_cases h3 : i < 32
    · simp [h1, h3]
    · have : r.getLsbD i = false := BitVec.getLsbD_of_ge _ _ (by omega)
      simp [h1, this]

theorem bitField_bit (r : BitVec 32) (s w i : Nat) : (bitField r s w).testBit i = (decide (i < w) && r.getLsbD (s + i)) := by
  rw [bitField, Nat.testBit_mod_two_pow, Nat.testBit_div_two_pow, BitVec.testBit_toNat, Nat.add_comm]

theorem get_toNat (h : f.Good bytes) (r : BitVec 32) : (f.get r).toNat = bitField r f.shift f.width := by
  have := h.fits; have := h.bytes
  apply Nat.eq_of_testBit_eq
  intro i
  rw [bitField_bit, BitVec.testBit_toNat, Field.get, BitVec.getLsbD_ushiftRight, BitVec.getLsbD_and, mask_bit h]
  by_cases h2 : i < f.width <;> simp [h2]

theorem put_toNat (h : f.Good bytes) (x : BitVec 32) : (f.put x).toNat = x.toNat % 2 ^ f.width * 2 ^ f.shift := by
  apply Nat.eq_of_testBit_eq
  intro i
  rw [BitVec.testBit_toNat, put_bit h, Nat.testBit_mul_two_pow, Nat.testBit_mod_two_pow, BitVec.testBit_toNat]
  by_cases h1 : f.shift ≤ i <;> by_cases h2 : i < f.shift + f.width
  · have : i - f.shift < f.width := by omega
    simp [h1, h2, this]
  · have : ¬ i - f.shift < f.width := by omega
    simp [h1, h2, this]
  all_goals simp [h1]

theorem set_self (h : f.Good bytes) (x r : BitVec 32) : bitField (f.set x r) f.shift f.width = x.toNat % 2 ^ f.width := by
  apply Nat.eq_of_testBit_eq
  intro i
  rw [bitField_bit, set_bit h, Nat.testBit_mod_two_pow, BitVec.testBit_toNat]
  by_cases h1 : i < f.width
  · have : f.shift ≤ f.shift + i ∧ f.shift + i < f.shift + f.width := by omega
    simp [h1]
  · simp [h1]

theorem set_other (h : f.Good bytes) (x r : BitVec 32) {s w : Nat} (hd : f.shift + f.width ≤ s ∨ s + w ≤ f.shift) :
    bitField (f.set x r) s w = bitField r s w := by
  apply Nat.eq_of_testBit_eq
  intro i
  rw [bitField_bit, bitField_bit, set_bit h]
  by_cases h1 : i < w
  · have : ¬ (f.shift ≤ s + i ∧ s + i < f.shift + f.width) := by omega
    rw [if_neg this]
  · simp [h1]

theorem set_lt (h : f.Good bytes) (x : BitVec 32) {r : BitVec 32} (hr : r.toNat < 2 ^ (8 * bytes)) :
    (f.set x r).toNat < 2 ^ (8 * bytes) := by
  have := h.fits
  apply Nat.lt_pow_two_of_testBit
  intro i hi
  rw [BitVec.testBit_toNat, set_bit h, if_neg (by omega), ← BitVec.testBit_toNat]
  exact Nat.testBit_lt_two_pow (Nat.lt_of_lt_of_le hr (Nat.pow_le_pow_right (by decide) hi))

/-- The check of a whole peripheral: fields and documented places. -/
def checkPlaced (r : Placed) : Bool :=
  r.fields.all (Field.goodB r.bytes) && clearAll r.fields && r.fields.all (fun f => Nat.ble (f.elem + 1) (r.count.getD 1)) &&
    (match r.doc with | none => true | some d => d == r.offset) &&
    (match r.step with | none => true | some d => d == r.stride)

theorem check_all : (peripherals.all fun p => (registers p.2).all checkPlaced) = true := by decide +kernel

theorem check_of_mem {p : String × List Member} (hp : p ∈ peripherals) {r : Placed} (hr : r ∈ registers p.2) :
    checkPlaced r = true :=
  List.all_eq_true.1 (List.all_eq_true.1 check_all p hp) r hr

theorem good_of_mem {p : String × List Member} (hp : p ∈ peripherals) {r : Placed} (hr : r ∈ registers p.2) {f : Field}
    (hf : f ∈ r.fields) : f.Good r.bytes := by
  have h := check_of_mem hp hr
  simp only [checkPlaced, Bool.and_eq_true, List.all_eq_true] at h
  exact Field.good_of_goodB (h.1.1.1.1 f hf)

/-- Ends before the other begins. -/
def apartB (a n b m : Nat) : Bool := Nat.ble (a + n) b || Nat.ble (b + m) a

theorem apart_of_apartB {a n b m : Nat} (h : apartB a n b m = true) : Apart a n b m := by
  simp only [apartB, Bool.or_eq_true, Nat.ble_eq] at h
  intro x hx
  omega

/-- Base and size of the instances. -/
def ranges : List (Nat × Nat) := instances.map fun i => (i.2.2, sizeOf' i.2.1)

end Uavcan.Registers
