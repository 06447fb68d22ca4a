import Verif.Lemmas.Registers
import Verif.Model.CoreClock
import Verif.Model.OnTarget
import Verif.Model.Boot

/-!
# C100: the register header
-/

namespace Uavcan.Registers
open Uavcan.Spec

/-- C100: for every field of every register of the header: `F(x)` is `x` cut to the width of the field, at its place; reading
with mask and shift gives the bits of the field; after writing, the field holds the low bits of `x`, and every other bit of the
register is as before; a register of 8 or 16 bits gets no bits beyond. -/
theorem C100_fields (p : String × List Member) (hp : p ∈ peripherals) (r : Placed) (hr : r ∈ registers p.2) (f : Field)
    (hf : f ∈ r.fields) (x v : BitVec 32) (hv : v.toNat < 2 ^ (8 * r.bytes)) :
    0 < f.width ∧ f.shift + f.width ≤ 8 * r.bytes ∧ 8 * r.bytes ≤ 32 ∧
    (f.put x).toNat = x.toNat % 2 ^ f.width * 2 ^ f.shift ∧
    (f.get v).toNat = bitField v f.shift f.width ∧
    bitField (f.set x v) f.shift f.width = x.toNat % 2 ^ f.width ∧
    (∀ i, i < f.shift ∨ f.shift + f.width ≤ i → bitField (f.set x v) i 1 = bitField v i 1) ∧
    (f.set x v).toNat < 2 ^ (8 * r.bytes) := by
  have h := good_of_mem hp hr hf
  refine ⟨h.width, h.fits, h.bytes, put_toNat h x, get_toNat h v, set_self h x v, fun i hi => set_other h x v ?_, set_lt h x hv⟩
  omega

/-- C100: writing one field of a register leaves all the others as they are. -/
theorem C100_other_fields (p : String × List Member) (hp : p ∈ peripherals) (r : Placed) (hr : r ∈ registers p.2) (i j : Nat)
    (hi : i < r.fields.length) (hj : j < r.fields.length) (hne : i ≠ j) (he : r.fields[i].elem = r.fields[j].elem)
    (x v : BitVec 32) : r.fields[j].get (r.fields[i].set x v) = r.fields[j].get v := by
  have hf := good_of_mem hp hr (List.getElem_mem hi)
  have hg := good_of_mem hp hr (List.getElem_mem hj)
  have hc : clearAll r.fields = true := by
    have h := check_of_mem hp hr
    simp only [checkPlaced, Bool.and_eq_true] at h
    exact h.1.1.1.2
  have hd := clear_of_clearAll hc hi hj hne
  simp only [Field.clear, Bool.or_eq_true, Bool.not_eq_true', beq_eq_false_iff_ne, Nat.ble_eq, ne_eq] at hd
  apply BitVec.eq_of_toNat_eq
  rw [get_toNat hg, get_toNat hg]
  apply set_other hf
  rcases hd with (hd | hd) | hd
  · exact absurd he hd
  · exact Or.inl hd
  · exact Or.inr hd

/-- C100: where the comments give the offset of a register, or the distance between the elements of an array, the compiler puts
it there. -/
theorem C100_offsets (p : String × List Member) (hp : p ∈ peripherals) (r : Placed) (hr : r ∈ registers p.2) :
    (∀ d, r.doc = some d → r.offset = d) ∧ (∀ d, r.step = some d → r.stride = d) := by
  have h := check_of_mem hp hr
  simp only [checkPlaced, Bool.and_eq_true] at h
  refine ⟨fun d hd => ?_, fun d hd => ?_⟩
  · have := h.1.2; rw [hd] at this; exact (of_decide_eq_true this).symm
  · have := h.2; rw [hd] at this; exact (of_decide_eq_true this).symm

/-- The system control block, in whose gaps the interrupt controller and the system timer are. -/
def inScb (a b : String) : Bool := a == "S32_SCB" && (b == "S32_SysTick" || b == "S32_NVIC")

/-- The addresses of the documented registers of the two do not overlap. -/
def registersApartB (a b : List Member × Nat) : Bool :=
  (registers a.1).all fun r => (registers b.1).all fun s => !r.doc.isSome || !s.doc.isSome ||
    apartB (a.2 + r.offset) (r.bytes * r.count.getD 1) (b.2 + s.offset) (s.bytes * s.count.getD 1)

theorem instances_apart : (instances.all fun a => instances.all fun b =>
    a.1 == b.1 || apartB a.2.2 (sizeOf' a.2.1) b.2.2 (sizeOf' b.2.1) ||
      ((inScb a.1 b.1 || inScb b.1 a.1) && registersApartB a.2 b.2)) = true := by
  decide +kernel

/-- Registers are within the structure, and at multiples of their size. -/
theorem instances_within : (instances.all fun a => Nat.ble (a.2.2 + sizeOf' a.2.1) (2 ^ 32) && (registers a.2.1).all fun r =>
    Nat.ble (r.offset + r.bytes * r.count.getD 1) (sizeOf' a.2.1) &&
      (!(r.bytes == 1 || r.bytes == 2 || r.bytes == 4) || (a.2.2 + r.offset) % r.bytes == 0)) = true := by
  decide +kernel

/-- C100: two peripherals have no address in common, but for the system control block, whose structure covers the interrupt
controller and the system timer. -/
theorem C100_apart (a b : String × List Member × Nat) (ha : a ∈ instances) (hb : b ∈ instances) (hne : a.1 ≠ b.1)
    (hs : ¬ (a.1 = "S32_SCB" ∧ (b.1 = "S32_SysTick" ∨ b.1 = "S32_NVIC")))
    (hs' : ¬ (b.1 = "S32_SCB" ∧ (a.1 = "S32_SysTick" ∨ a.1 = "S32_NVIC"))) :
    Apart a.2.2 (sizeOf' a.2.1) b.2.2 (sizeOf' b.2.1) := by
  have h := List.all_eq_true.1 (List.all_eq_true.1 instances_apart a ha) b hb
  simp only [inScb, Bool.or_eq_true, Bool.and_eq_true, beq_iff_eq] at h
  rcases h with (h | h) | ⟨h | h, _⟩
  · exact absurd h hne
  · exact apart_of_apartB h
  · exact absurd h hs
  · exact absurd h hs'

/-- C100: every register of every peripheral is within its structure, below 4 GiB, and at a multiple of its size. -/
theorem C100_within (a : String × List Member × Nat) (ha : a ∈ instances) (r : Placed) (hr : r ∈ registers a.2.1) :
    a.2.2 + sizeOf' a.2.1 ≤ 2 ^ 32 ∧ r.offset + r.bytes * r.count.getD 1 ≤ sizeOf' a.2.1 ∧
      (r.bytes = 1 ∨ r.bytes = 2 ∨ r.bytes = 4 → (a.2.2 + r.offset) % r.bytes = 0) := by
  have h := List.all_eq_true.1 instances_within a ha
  simp only [Bool.and_eq_true, List.all_eq_true, Nat.ble_eq, Bool.or_eq_true, Bool.not_eq_true', beq_iff_eq] at h
  refine ⟨h.1, (h.2 r hr).1, fun hb => ?_⟩
  rcases (h.2 r hr).2 with h2 | h2
  · simp only [Bool.or_eq_false_iff, beq_eq_false_iff_ne] at h2; omega
  · exact h2

/-- C100: two documented registers of different peripherals, system control block included, have no address in common. (Of arrays
of structures these are the registers of the first element, and the arrays.) -/
theorem C100_registers_apart (a b : String × List Member × Nat) (ha : a ∈ instances) (hb : b ∈ instances) (hne : a.1 ≠ b.1)
    (r s : Placed) (hr : r ∈ registers a.2.1) (hs : s ∈ registers b.2.1) (hrd : r.doc ≠ none) (hsd : s.doc ≠ none) :
    Apart (a.2.2 + r.offset) (r.bytes * r.count.getD 1) (b.2.2 + s.offset) (s.bytes * s.count.getD 1) := by
  have h := List.all_eq_true.1 (List.all_eq_true.1 instances_apart a ha) b hb
  simp only [Bool.or_eq_true, Bool.and_eq_true, beq_iff_eq] at h
  rcases h with (h | h) | ⟨_, h⟩
  · exact absurd h hne
  · have h1 := (C100_within a ha r hr).2.1
    have h2 := (C100_within b hb s hs).2.1
    intro x hx
    exact apart_of_apartB h x (by omega)
  · have h3 := List.all_eq_true.1 (List.all_eq_true.1 h r hr) s hs
    simp only [Bool.or_eq_true, Bool.not_eq_true', Option.isSome_eq_false_iff, Option.isNone_iff_eq_none] at h3
    rcases h3 with (h3 | h3) | h3
    · exact absurd h3 hrd
    · exact absurd h3 hsd
    · exact apart_of_apartB h3

/-- The field of that name in the header. -/
def fieldOf (p r f : String) : Option Field :=
  match peripherals.find? (·.1 == p) with
  | none => none
  | some q => match (registers q.2).find? (·.name == r) with
    | none => none
    | some s => s.fields.find? (·.name == f)

/-- The fields of a register that are not zero in `v`. -/
def decode (p r : String) (v : BitVec 32) : List (String × Nat) :=
  match peripherals.find? (·.1 == p) with
  | none => []
  | some q => match (registers q.2).find? (·.name == r) with
    | none => []
    | some s => s.fields.filterMap fun f => if bitField v f.shift f.width = 0 then none else some (f.name, bitField v f.shift f.width)

/-- C100: what the start-up code and the on-target tests read are the fields of the header with those names. -/
theorem C100_reads (v : BitVec 32) :
    (fieldOf "SCG" "CSR" "DIVCORE").map (·.get v) = some ((v &&& 0xF0000#32) >>> 16) ∧
    (fieldOf "SCG" "CSR" "SCS").map (·.get v) = some ((v &&& 0xF000000#32) >>> 24) ∧
    (fieldOf "SCG" "SIRCCFG" "RANGE").map (·.get v) = some ((v &&& 0x1#32) >>> 0) ∧
    (fieldOf "SCG" "FIRCCFG" "RANGE").map (·.get v) = some ((v &&& 0x3#32) >>> 0) ∧
    (fieldOf "SCG" "SPLLCFG" "PREDIV").map (·.get v) = some ((v &&& 0x700#32) >>> 8) ∧
    (fieldOf "SCG" "SPLLCFG" "MULT").map (·.get v) = some ((v &&& 0x1F0000#32) >>> 16) ∧
    (fieldOf "LPUART" "STAT" "TDRE").map (·.get v) = some ((v &&& 0x800000#32) >>> 23) ∧
    (fieldOf "LPUART" "STAT" "RDRF").map (·.get v) = some ((v &&& 0x200000#32) >>> 21) := by
  have a1 : fieldOf "SCG" "CSR" "DIVCORE" = some ⟨"DIVCORE", 0xF0000, 16, 4, 32, 0⟩ := by decide +kernel
  have a2 : fieldOf "SCG" "CSR" "SCS" = some ⟨"SCS", 0xF000000, 24, 4, 32, 0⟩ := by decide +kernel
  have a3 : fieldOf "SCG" "SIRCCFG" "RANGE" = some ⟨"RANGE", 0x1, 0, 1, 32, 0⟩ := by decide +kernel
  have a4 : fieldOf "SCG" "FIRCCFG" "RANGE" = some ⟨"RANGE", 0x3, 0, 2, 32, 0⟩ := by decide +kernel
  have a5 : fieldOf "SCG" "SPLLCFG" "PREDIV" = some ⟨"PREDIV", 0x700, 8, 3, 32, 0⟩ := by decide +kernel
  have a6 : fieldOf "SCG" "SPLLCFG" "MULT" = some ⟨"MULT", 0x1F0000, 16, 5, 32, 0⟩ := by decide +kernel
  have a7 : fieldOf "LPUART" "STAT" "TDRE" = some ⟨"TDRE", 0x800000, 23, 1, 32, 0⟩ := by decide +kernel
  have a8 : fieldOf "LPUART" "STAT" "RDRF" = some ⟨"RDRF", 0x200000, 21, 1, 32, 0⟩ := by decide +kernel
  rw [a1, a2, a3, a4, a5, a6, a7, a8]
  exact ⟨rfl, rfl, rfl, rfl, rfl, rfl, rfl, rfl⟩

/-! Concrete cases. -/

/-- There are 41 kinds of peripherals with 731 registers or structures and 2358 fields, and 66 peripherals. -/
example : peripherals.length = 41 ∧ (peripherals.flatMap fun p => registers p.2).length = 731 ∧
    (peripherals.flatMap fun p => (registers p.2).flatMap (·.fields)).length = 2358 ∧ instances.length = 66 := by decide +kernel

/-- Of the 731, 598 have a documented offset. -/
example : ((peripherals.flatMap fun p => registers p.2).filter fun r => r.doc.isSome).length = 598 := by decide +kernel

/-- `WDOG_CS` with `CLK` set to 5, which has 2 bits: the field is 1, the rest as it was. -/
example : (fieldOf "WDOG" "CS" "CLK").map (fun f => (f.set 5#32 0x2920#32, f.get 0x2920#32, f.put 5#32)) =
    some (0x2920#32, 1#32, 0x100#32) := by decide +kernel

/-- A register of 8 bits: `EWM_CTRL`. -/
example : (fieldOf "EWM" "CTRL" "ASSIN").map (fun f => (f.cast, f.set 0xFFFFFFFF#32 0x80#32)) = some (8, 0x82#32) := by
  decide +kernel

/-- The structure of the system control block does cover the system timer. -/
example : ¬ Apart 0xE000E000 (sizeOf' rS32_SCB) 0xE000E010 (sizeOf' rS32_SysTick) := fun h => h 0xE000E010 (by decide +kernel)

end Uavcan.Registers
