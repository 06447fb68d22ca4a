import Verif.Spec.Startup

/-!
# Lemmas about the start-up loops and the linker script
-/

namespace Uavcan.Startup

theorem copyLoop_spec (e : Nat) : ∀ (n rom ram : Nat) (m : Mem), e = rom + n → Apart rom n ram n →
    ∃ m', copyLoop e rom ram m = .ok m' ∧ (∀ i, i < n → m' (ram + i) = m (rom + i)) ∧
      (∀ a, ¬ In a ram n → m' a = m a) := by
  intro n
  induction n with
  | zero =>
    intro rom ram m he _
    refine ⟨m, ?_, fun i hi => by omega, fun a _ => rfl⟩
    rw [copyLoop.eq_def, if_pos (by omega)]
  | succ n ih =>
    intro rom ram m he ha
    unfold Apart at ha
    obtain ⟨m', h1, h2, h3⟩ := ih (rom + 1) (ram + 1) (m.set ram (m rom)) (by omega) (by unfold Apart; omega)
    refine ⟨m', ?_, ?_, ?_⟩
    · rw [copyLoop.eq_def, if_neg (by omega), if_neg (by omega)]; exact h1
    · intro i hi
      cases i with
      | zero =>
        have := h3 ram (by unfold In; omega)
        simp only [Nat.add_zero, this, Mem.set, if_true]
      | succ i =>
        have := h2 i (by omega)
        rw [show ram + (i + 1) = ram + 1 + i by omega, this, Mem.set, if_neg (by omega)]
        congr 1; omega
    · intro a hn
      unfold In at hn
      rw [h3 a (by unfold In; omega), Mem.set, if_neg (by omega)]

theorem zeroLoop_spec (e : Nat) : ∀ (n b : Nat) (m : Mem), e = b + n →
    ∃ m', zeroLoop e b m = .ok m' ∧ (∀ i, i < n → m' (b + i) = 0) ∧ (∀ a, ¬ In a b n → m' a = m a) := by
  intro n
  induction n with
  | zero =>
    intro b m he
    refine ⟨m, ?_, fun i hi => by omega, fun a _ => rfl⟩
    rw [zeroLoop.eq_def, if_pos (by omega)]
  | succ n ih =>
    intro b m he
    obtain ⟨m', h1, h2, h3⟩ := ih (b + 1) (m.set b 0) (by omega)
    refine ⟨m', ?_, ?_, ?_⟩
    · rw [zeroLoop.eq_def, if_neg (by omega), if_neg (by omega)]; exact h1
    · intro i hi
      cases i with
      | zero =>
        have := h3 b (by unfold In; omega)
        simp only [Nat.add_zero, this, Mem.set, if_true]
      | succ i =>
        rw [show b + (i + 1) = b + 1 + i by omega, h2 i (by omega)]
    · intro a hn
      unfold In at hn
      rw [h3 a (by unfold In; omega), Mem.set, if_neg (by omega)]

theorem copyWord_at (m : Mem) (to fr a : Nat) : copyWord m to fr a =
    if In a to 4 then m (fr + (a - to)) else m a := by
  unfold copyWord Mem.set
  by_cases h3 : a = to + 3
  · subst h3; simp [In]
  · by_cases h2 : a = to + 2
    · subst h2; simp [In]
    · by_cases h1 : a = to + 1
      · subst h1; simp [In]
      · by_cases h0 : a = to
        · subst h0; simp [In]
        · rw [if_neg h3, if_neg h2, if_neg h1, if_neg h0, if_neg (by unfold In; omega)]

theorem copyWords_spec (ram table : Nat) : ∀ (k n : Nat) (m : Mem),
    Apart (table + 4 * n) (4 * k) (ram + 4 * n) (4 * k) →
    (∀ i, 4 * n ≤ i → i < 4 * (n + k) → copyWords ram table k n m (ram + i) = m (table + i)) ∧
    (∀ a, ¬ In a (ram + 4 * n) (4 * k) → copyWords ram table k n m a = m a) := by
  intro k
  induction k with
  | zero => intro n m _; exact ⟨fun i h1 h2 => by omega, fun a _ => rfl⟩
  | succ k ih =>
    intro n m ha
    unfold Apart at ha
    obtain ⟨h1, h2⟩ := ih (n + 1) (copyWord m (ram + 4 * n) (table + 4 * n)) (by unfold Apart; omega)
    constructor
    · intro i hi hi'
      show copyWords ram table k (n + 1) _ _ = _
      by_cases hc : 4 * (n + 1) ≤ i
      · rw [h1 i hc (by omega), copyWord_at, if_neg (by unfold In; omega)]
      · rw [h2 _ (by unfold In; omega), copyWord_at, if_pos (by unfold In; omega)]
        congr 1; omega
    · intro a hn
      unfold In at hn
      show copyWords ram table k (n + 1) _ _ = _
      rw [h2 a (by unfold In; omega), copyWord_at, if_neg (by unfold In; omega)]

/-! ## The linker script -/

theorem le_alignUp (n dot : Nat) (h : 0 < n) : dot ≤ alignUp n dot := by
  unfold alignUp
  have h1 := Nat.div_add_mod (dot + (n - 1)) n
  have h2 := Nat.mod_lt (dot + (n - 1)) h
  rw [Nat.mul_comm] at h1
  omega

theorem dvd_alignUp (n dot : Nat) : n ∣ alignUp n dot := Nat.dvd_mul_left _ _

theorem alignUp_of_dvd (n dot : Nat) (h : 0 < n) (hd : n ∣ dot) : alignUp n dot = dot := by
  obtain ⟨k, rfl⟩ := hd
  unfold alignUp
  rw [Nat.mul_comm n k, Nat.add_comm, Nat.add_mul_div_right _ _ h, Nat.div_eq_of_lt (by omega), Nat.zero_add]

/-- Alignments are powers of two. -/
def PowerOfTwo (n : Nat) : Prop := ∃ k, n = 2 ^ k

theorem PowerOfTwo.pos {n : Nat} (h : PowerOfTwo n) : 0 < n := by
  obtain ⟨k, rfl⟩ := h; exact Nat.two_pow_pos k

theorem four_dvd_alignUp {n dot : Nat} (h : PowerOfTwo n) (hd : 4 ∣ dot) : 4 ∣ alignUp n dot := by
  obtain ⟨k, rfl⟩ := h
  match k with
  | 0 => rw [alignUp_of_dvd _ _ (by decide) ⟨dot, by omega⟩]; exact hd
  | 1 => rw [alignUp_of_dvd _ _ (by decide) (by omega)]; exact hd
  | k + 2 =>
    refine Nat.dvd_trans ?_ (dvd_alignUp (2 ^ (k + 2)) dot)
    rw [Nat.pow_add]
    exact Nat.dvd_mul_left _ _

end Uavcan.Startup
