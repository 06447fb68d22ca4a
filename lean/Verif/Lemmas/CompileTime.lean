import Verif.Model.CompileTime

/-!
# Lemmas about what the compiler accepts
-/

namespace Uavcan.CompileTime

/-! ## Layout -/

theorem le_roundUp (n : Nat) {a : Nat} (ha : 0 < a) : n ≤ roundUp n a := by
  unfold roundUp
  have h1 := Nat.div_add_mod (n + a - 1) a
  have h2 := Nat.mod_lt (n + a - 1) ha
  rw [Nat.mul_comm] at h1
  omega

theorem roundUp_of_dvd {n a : Nat} (ha : 0 < a) (h : a ∣ n) : roundUp n a = n := by
  obtain ⟨k, rfl⟩ := h
  unfold roundUp
  have : (a * k + a - 1) / a = k := by
    rw [show a * k + a - 1 = (a - 1) + a * k by omega, Nat.add_mul_div_left _ _ ha,
      Nat.div_eq_of_lt (by omega)]
    omega
  rw [this, Nat.mul_comm]

theorem le_place (ms : List DataMember) (hms : ∀ m ∈ ms, 0 < m.align) (e : Nat) : e ≤ place e ms := by
  induction ms generalizing e with
  | nil => exact Nat.le_refl _
  | cons m ms ih =>
    have h1 := ih (fun x hx => hms x (List.mem_cons_of_mem _ hx)) (roundUp e m.align + m.size)
    have h2 := le_roundUp e (hms m List.mem_cons_self)
    simp only [place]; omega

theorem maxAlign_pos (ms : List DataMember) {a : Nat} (ha : 0 < a) : 0 < maxAlign a ms := by
  induction ms generalizing a with
  | nil => exact ha
  | cons m ms ih => exact ih (by omega)

/-! ## Scopes -/

/-- `inScope` means what it should: what a statement uses was declared before. -/
theorem inScope_iff (p : List (Option Nat × List Nat)) (ds : List Nat) :
    inScope ds p = true ↔
      ∀ i (hi : i < p.length), ∀ x ∈ p[i].2, x ∈ ds ∨ ∃ j, ∃ hj : j < i, (p[j]'(by omega)).1 = some x := by
  induction p generalizing ds with
  | nil => simp [inScope]
  | cons s rest ih =>
    obtain ⟨d, us⟩ := s
    simp only [inScope, Bool.and_eq_true, ih, List.all_eq_true, List.contains_iff_mem, List.length_cons]
    constructor
    · rintro ⟨h1, h2⟩ i hi x hx
      cases i with
      | zero => exact Or.inl (h1 x hx)
      | succ i =>
        rcases h2 i (by omega) x hx with h | ⟨j, hj, h⟩
        · rcases List.mem_append.mp h with h | h
          · exact Or.inr ⟨0, by omega, by simpa [Option.mem_toList] using h⟩
          · exact Or.inl h
        · exact Or.inr ⟨j + 1, by omega, h⟩
    · intro h
      refine ⟨fun x hx => ?_, fun i hi x hx => ?_⟩
      · rcases h 0 (by omega) x hx with h | ⟨j, hj, _⟩
        · exact h
        · omega
      · rcases h (i + 1) (by omega) x hx with h | ⟨j, hj, h⟩
        · exact Or.inl (List.mem_append.mpr (Or.inr h))
        · cases j with
          | zero => exact Or.inl (List.mem_append.mpr (Or.inl (by simpa [Option.mem_toList] using h)))
          | succ j => exact Or.inr ⟨j, by omega, h⟩

/-- The first statement of a program in scope uses nothing. -/
theorem inScope_head {s : Option Nat × List Nat} {rest} (h : inScope [] (s :: rest) = true) :
    s.2 = [] := by
  obtain ⟨d, us⟩ := s
  simp only [inScope, Bool.and_eq_true, List.all_eq_true] at h
  cases us with
  | nil => rfl
  | cons u us => exact absurd (h.1 u List.mem_cons_self) (by simp)

end Uavcan.CompileTime
