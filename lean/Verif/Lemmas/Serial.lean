import Verif.Spec.Serial

/-!
# Lemmas about the serial line
-/

namespace Uavcan.Serial

open Uavcan.CoreClock.Spec Spec

theorem frame_length (b : Byte) : (frame b).length = 10 := by simp [frame]

theorem flatMap_replicate_length (S : Nat) (l : List Bool) : (l.flatMap (List.replicate S)).length = l.length * S := by
  induction l with
  | nil => simp
  | cons x l ih => rw [List.flatMap_cons, List.length_append, ih, List.length_replicate, List.length_cons, Nat.add_mul]; omega

/-- The level in the `k`th bit. -/
theorem level_stretch (S : Nat) (l r : List Bool) : ∀ k t, k * S ≤ t → t < (k + 1) * S → k < l.length →
    level (l.flatMap (List.replicate S) ++ r) t = l.getD k true := by
  induction l with
  | nil => intro k t _ _ h; cases h
  | cons x l ih =>
    intro k t h1 h2 hk
    unfold level at ih ⊢
    rw [List.flatMap_cons, List.append_assoc]
    cases k with
    | zero =>
      rw [List.getD_eq_getElem?_getD, List.getElem?_append_left (by rw [List.length_replicate]; omega),
        List.getElem?_replicate, if_pos (by omega)]
      rfl
    | succ k =>
      have e1 : (k + 1) * S = k * S + S := Nat.succ_mul k S
      have e2 : (k + 1 + 1) * S = (k + 1) * S + S := Nat.succ_mul (k + 1) S
      rw [List.getD_eq_getElem?_getD, List.getElem?_append_right (by rw [List.length_replicate]; omega), List.length_replicate,
        ← List.getD_eq_getElem?_getD, ih k (t - S) (by omega) (by omega) (by simpa using hk)]
      rfl

theorem byte_of_bits (b : Byte) : BitVec.ofNat 8 ((List.range 8).foldr (fun k n => 2 * n + (b.getLsbD k).toNat) 0) = b := by
  revert b
  decide

theorem frame_bit (b : Byte) (k : Nat) (hk : k < 8) : (frame b).getD (k + 1) true = b.getLsbD k := by
  match k, hk with
  | 0, _ | 1, _ | 2, _ | 3, _ | 4, _ | 5, _ | 6, _ | 7, _ => rfl

/-- Each bit is read while it is on the line. -/
def InTime (S R d : Nat) : Prop := ∀ k, k ≤ 9 → k * S ≤ d + R / 2 + k * R ∧ d + R / 2 + k * R < (k + 1) * S

theorem character_frame (S R d : Nat) (b : Byte) (r : List Bool) (h : InTime S R d) :
    character R d ((frame b).flatMap (List.replicate S) ++ r) = some b := by
  have hb : ∀ k, k ≤ 9 → level ((frame b).flatMap (List.replicate S) ++ r) (d + R / 2 + k * R) = (frame b).getD k true := by
    intro k hk
    exact level_stretch S _ r k _ (h k hk).1 (h k hk).2 (by rw [frame_length]; omega)
  have hf : (List.range 8).foldr (fun k n => 2 * n + (level ((frame b).flatMap (List.replicate S) ++ r)
      (d + R / 2 + (k + 1) * R)).toNat) 0 = (List.range 8).foldr (fun k n => 2 * n + (b.getLsbD k).toNat) 0 := by
    have : ∀ l : List Nat, (∀ k ∈ l, k < 8) → l.foldr (fun k n => 2 * n + (level ((frame b).flatMap (List.replicate S) ++ r)
      (d + R / 2 + (k + 1) * R)).toNat) 0 = l.foldr (fun k n => 2 * n + (b.getLsbD k).toNat) 0 := by
      intro l hl
      induction l with
      | nil => rfl
      | cons x l ih =>
        have hx := hl x (List.mem_cons_self ..)
        rw [List.foldr_cons, List.foldr_cons, ih (fun k hk => hl k (List.mem_cons_of_mem _ hk)), hb (x + 1) (by omega),
          frame_bit b x hx]
    exact this _ (fun k hk => List.mem_range.1 hk)
  unfold character
  simp only
  rw [hb 0 (by omega), hb 9 (by omega), if_pos ⟨rfl, rfl⟩, hf, byte_of_bits]

theorem dropWhile_replicate (g : Nat) (l : List Bool) : (List.replicate g true ++ l).dropWhile id = l.dropWhile id := by
  induction g with
  | zero => rfl
  | succ g ih => rw [List.replicate_succ, List.cons_append, List.dropWhile_cons_of_pos rfl, ih]

theorem drop_stop (S t : Nat) (b : Byte) (r : List Bool) (h1 : 9 * S ≤ t) (h2 : t ≤ 10 * S) :
    ((frame b).flatMap (List.replicate S) ++ r).drop t = List.replicate (10 * S - t) true ++ r := by
  have e : frame b = (false :: (List.range 8).map b.getLsbD) ++ [true] := rfl
  have hl : (((false :: (List.range 8).map b.getLsbD)).flatMap (List.replicate S)).length = 9 * S := by
    rw [flatMap_replicate_length]; simp
  rw [e, List.flatMap_append, List.append_assoc, List.drop_append, hl, List.drop_of_length_le (by omega), List.nil_append]
  simp only [List.flatMap_cons, List.flatMap_nil, List.append_nil]
  rw [List.drop_append, List.drop_replicate, List.length_replicate, show t - 9 * S - S = 0 by omega, List.drop_zero,
    show S - (t - 9 * S) = 10 * S - t by omega]

theorem characters_line (S R : Nat) (d : Nat → Nat) (hin : ∀ n, InTime S R (d n)) : ∀ (cs : List (Nat × Byte)) (fuel n g : Nat),
    cs.length ≤ fuel → characters R d fuel n (List.replicate g true ++ line S cs) = cs.map fun c => some c.2 := by
  have hS : 0 < S := by have := (hin 0 0 (by omega)).2; omega
  intro cs
  induction cs with
  | nil =>
    intro fuel n g _
    cases fuel with
    | zero => rfl
    | succ fuel =>
      unfold characters
      rw [dropWhile_replicate]
      rfl
  | cons c cs ih =>
    intro fuel n g hf
    obtain ⟨gap, b⟩ := c
    cases fuel with
    | zero => cases hf
    | succ fuel =>
      unfold characters
      have hd : (List.replicate g true ++ line S ((gap, b) :: cs)).dropWhile id =
          (frame b).flatMap (List.replicate S) ++ line S cs := by
        rw [dropWhile_replicate]
        show ((List.replicate gap true ++ (frame b).flatMap (List.replicate S)) ++ line S cs).dropWhile id = _
        rw [List.append_assoc, dropWhile_replicate]
        obtain ⟨S, rfl⟩ : ∃ S', S = S' + 1 := ⟨S - 1, by omega⟩
        unfold frame
        rw [List.cons_append, List.flatMap_cons, List.replicate_succ, List.cons_append, List.cons_append,
          List.dropWhile_cons_of_neg (by simp)]
      rw [hd]
      have hdrop := drop_stop S (d n + R / 2 + 9 * R) b (line S cs) (hin n 9 (by omega)).1 (by have := (hin n 9 (by omega)).2; omega)
      have hch := character_frame S R (d n) b (line S cs) (hin n)
      cases hl : (frame b).flatMap (List.replicate S) ++ line S cs with
      | nil =>
        have := congrArg List.length hl
        rw [List.length_append, flatMap_replicate_length, frame_length] at this
        simp at this
        omega
      | cons x l =>
        rw [hl] at hdrop hch
        simp only [hdrop, hch, List.map_cons]
        rw [ih fuel (n + 1) _ (by simpa using hf)]

theorem line_length (S : Nat) (hS : 0 < S) (cs : List (Nat × Byte)) : cs.length ≤ (line S cs).length := by
  induction cs with
  | nil => exact Nat.zero_le _
  | cons c cs ih =>
    obtain ⟨gap, b⟩ := c
    have : (line S ((gap, b) :: cs)).length = gap + 10 * S + (line S cs).length := by
      show ((List.replicate gap true ++ (frame b).flatMap (List.replicate S)) ++ line S cs).length = _
      rw [List.length_append, List.length_append, List.length_replicate, flatMap_replicate_length, frame_length]
    rw [this, List.length_cons]
    omega

/-- Within a good four per cent of each other. -/
theorem hears (S R : Nat) (hS : 0 < S) (heven : R % 2 = 0) (h1 : 18 * S ≤ 19 * R) (h2 : 153 * R < 160 * S) : Hears S R := by
  intro d hd cs
  have hin : ∀ n, InTime S R (d n) := by
    intro n k hk
    have := hd n
    have h3 : k = 0 ∨ k = 1 ∨ k = 2 ∨ k = 3 ∨ k = 4 ∨ k = 5 ∨ k = 6 ∨ k = 7 ∨ k = 8 ∨ k = 9 := by omega
    rcases h3 with rfl | rfl | rfl | rfl | rfl | rfl | rfl | rfl | rfl | rfl <;> omega
  have := characters_line S R d hin cs (line S cs).length 0 0 (line_length S hS cs)
  rw [List.replicate_zero, List.nil_append] at this
  exact this

theorem field_testBit (v : BitVec 32) (lo w i : Nat) : (field v lo w).testBit i = (decide (i < w) && v.getLsbD (lo + i)) := by
  unfold field
  rw [Nat.testBit_mod_two_pow, Nat.testBit_div_two_pow, BitVec.getLsbD, Nat.add_comm]

theorem field_or (v c : BitVec 32) (lo w : Nat) : field (v ||| c) lo w = field v lo w ||| field c lo w := by
  apply Nat.eq_of_testBit_eq
  intro i
  rw [Nat.testBit_or, field_testBit, field_testBit, field_testBit, BitVec.getLsbD_or]
  cases decide (i < w) <;> simp

theorem field_and (v c : BitVec 32) (lo w : Nat) : field (v &&& c) lo w = field v lo w &&& field c lo w := by
  apply Nat.eq_of_testBit_eq
  intro i
  rw [Nat.testBit_and, field_testBit, field_testBit, field_testBit, BitVec.getLsbD_and]
  cases decide (i < w) <;> simp

theorem field_lt (v : BitVec 32) (lo w : Nat) : field v lo w < 2 ^ w := Nat.mod_lt _ (Nat.two_pow_pos w)

theorem foldr_bits (f : Nat → Bool) (k : Nat) (hk : k < 8) :
    (BitVec.ofNat 8 ((List.range 8).foldr (fun k n => 2 * n + (f k).toNat) 0)).getLsbD k = f k := by
  show (BitVec.ofNat 8 (2 * (2 * (2 * (2 * (2 * (2 * (2 * (2 * 0 + (f 7).toNat) + (f 6).toNat) + (f 5).toNat) + (f 4).toNat) + (f 3).toNat) +
    (f 2).toNat) + (f 1).toNat) + (f 0).toNat)).getLsbD k = f k
  generalize e0 : f 0 = b0
  generalize e1 : f 1 = b1
  generalize e2 : f 2 = b2
  generalize e3 : f 3 = b3
  generalize e4 : f 4 = b4
  generalize e5 : f 5 = b5
  generalize e6 : f 6 = b6
  generalize e7 : f 7 = b7
  have hall : ∀ b0 b1 b2 b3 b4 b5 b6 b7 : Bool, ∀ k : Fin 8, (BitVec.ofNat 8 (2 * (2 * (2 * (2 * (2 * (2 * (2 * (2 * 0 + b7.toNat) +
      b6.toNat) + b5.toNat) + b4.toNat) + b3.toNat) + b2.toNat) + b1.toNat) + b0.toNat)).getLsbD k =
      [b0, b1, b2, b3, b4, b5, b6, b7].getD k false := by decide +kernel
  rw [hall b0 b1 b2 b3 b4 b5 b6 b7 ⟨k, hk⟩]
  match k, hk with
  | 0, _ => exact e0.symm
  | 1, _ => exact e1.symm
  | 2, _ => exact e2.symm
  | 3, _ => exact e3.symm
  | 4, _ => exact e4.symm
  | 5, _ => exact e5.symm
  | 6, _ => exact e6.symm
  | 7, _ => exact e7.symm

/-- What is read of a character that comes first, without a gap. -/
theorem read_first (S R : Nat) (d : Nat → Nat) (hS : 0 < S) (b : Byte) (cs : List (Nat × Byte)) :
    (Serial.Spec.read R d (line S ((0, b) :: cs))).head? =
      some (character R (d 0) ((frame b).flatMap (List.replicate S) ++ line S cs)) := by
  have hl : line S ((0, b) :: cs) = (frame b).flatMap (List.replicate S) ++ line S cs := by simp [line]
  have hlen : ((frame b).flatMap (List.replicate S) ++ line S cs).length = 10 * S + (line S cs).length := by
    rw [List.length_append, flatMap_replicate_length, frame_length]
  unfold Serial.Spec.read
  rw [hl, hlen]
  obtain ⟨f, hf⟩ : ∃ f, 10 * S + (line S cs).length = f + 1 := ⟨10 * S + (line S cs).length - 1, by omega⟩
  rw [hf]
  unfold characters
  have hd : ((frame b).flatMap (List.replicate S) ++ line S cs).dropWhile id = (frame b).flatMap (List.replicate S) ++ line S cs := by
    obtain ⟨S, rfl⟩ : ∃ S', S = S' + 1 := ⟨S - 1, by omega⟩
    unfold frame
    rw [List.cons_append, List.flatMap_cons, List.replicate_succ, List.cons_append, List.cons_append, List.dropWhile_cons_of_neg (by simp)]
  rw [hd]
  cases hx : (frame b).flatMap (List.replicate S) ++ line S cs with
  | nil => rw [hx] at hlen; simp at hlen; omega
  | cons x l => rfl

/-- The level while a zero is sent. -/
theorem level_zero (S : Nat) (r : List Bool) (t : Nat) (h : t < 9 * S) :
    level ((frame 0#8).flatMap (List.replicate S) ++ r) t = false := by
  have hS : 0 < S := by omega
  have hk : t / S < 9 := Nat.div_lt_of_lt_mul (by omega)
  rw [level_stretch S _ r (t / S) t (Nat.div_mul_le_self _ _) (by rw [Nat.mul_comm]; exact Nat.lt_mul_div_succ _ hS) (by rw [frame_length]; omega)]
  have : ∀ k : Fin 9, (frame 0#8).getD k.1 true = false := by decide
  exact this ⟨t / S, hk⟩

/-- The exact tolerance of a receiver: the stop bit must not be read too early nor, with the latest edge, too late. -/
theorem hears_iff (S R : Nat) (hS : 0 < S) (heven : R % 2 = 0) :
    Hears S R ↔ 18 * S ≤ 19 * R ∧ R / 16 + R / 2 + 9 * R < 10 * S := by
  constructor
  · intro hh
    constructor
    · refine Nat.le_of_not_lt fun hlt => ?_
      have h0 := hh (fun _ => 0) (fun n => by simp) [(0, 0#8)]
      have h1 := read_first S R (fun _ => 0) hS 0#8 []
      rw [h0] at h1
      simp only [List.map_cons, List.head?_cons, Option.some.injEq] at h1
      unfold character at h1
      simp only at h1
      rw [level_zero S (line S []) (0 + R / 2 + 9 * R) (by omega)] at h1
      rw [if_neg (by simp)] at h1
      cases h1
    · refine Nat.lt_of_not_le fun hge => ?_
      have hd : ∀ n : Nat, 16 * (fun _ : Nat => R / 16) n ≤ R := fun _ => Nat.mul_div_le R 16
      by_cases h8 : 9 * S ≤ R / 16 + R / 2 + 8 * R
      · -- the last data bit of a zero is read as a one
        have h0 := hh (fun _ => R / 16) hd [(0, 0#8)]
        have h1 := read_first S R (fun _ => R / 16) hS 0#8 []
        rw [h0] at h1
        simp only [List.map_cons, List.head?_cons, Option.some.injEq] at h1
        unfold character at h1
        simp only at h1
        split at h1
        · injection h1 with h1
          have h2 := congrArg (fun b : Byte => b.getLsbD 7) h1
          rw [foldr_bits (fun k => level ((frame 0#8).flatMap (List.replicate S) ++ line S []) (R / 16 + R / 2 + (k + 1) * R)) 7 (by omega)] at h2
          have h3 : level ((frame 0#8).flatMap (List.replicate S) ++ line S []) (R / 16 + R / 2 + (7 + 1) * R) = true := by
            by_cases hc : R / 16 + R / 2 + (7 + 1) * R < 10 * S
            · rw [level_stretch S (frame 0#8) _ 9 _ (by omega) (by omega) (by decide)]; rfl
            · unfold level
              rw [List.getD_eq_getElem?_getD, List.getElem?_eq_none
                (by rw [List.length_append, flatMap_replicate_length, frame_length]; simp only [line, List.length_nil]; omega)]
              rfl
          rw [h3] at h2
          cases h2
        · cases h1
      · -- the stop bit is read in the start bit of the next character
        have h0 := hh (fun _ => R / 16) hd [(0, 0#8), (0, 0#8)]
        have h1 := read_first S R (fun _ => R / 16) hS 0#8 [(0, 0#8)]
        rw [h0] at h1
        simp only [List.map_cons, List.head?_cons, Option.some.injEq] at h1
        unfold character at h1
        simp only at h1
        have h9 : level ((frame 0#8).flatMap (List.replicate S) ++ line S [(0, 0#8)]) (R / 16 + R / 2 + 9 * R) = false := by
          have e : (frame 0#8).flatMap (List.replicate S) ++ line S [(0, 0#8)] =
              (frame 0#8 ++ frame 0#8).flatMap (List.replicate S) ++ [] := by simp [line, List.flatMap_append]
          rw [e, level_stretch S (frame 0#8 ++ frame 0#8) [] 10 _ (by omega) (by omega) (by decide)]
          rfl
        rw [h9, if_neg (by simp)] at h1
        cases h1
  · rintro ⟨h1, h2⟩ d hd cs
    have hin : ∀ n, InTime S R (d n) := by
      intro n k hk
      have := hd n
      have h3 : k = 0 ∨ k = 1 ∨ k = 2 ∨ k = 3 ∨ k = 4 ∨ k = 5 ∨ k = 6 ∨ k = 7 ∨ k = 8 ∨ k = 9 := by omega
      rcases h3 with rfl | rfl | rfl | rfl | rfl | rfl | rfl | rfl | rfl | rfl <;> omega
    unfold Serial.Spec.read
    have := characters_line S R d hin cs (line S cs).length 0 0 (line_length S hS cs)
    simpa using this

/-- Exactly which rates, clocks and divisors go together: the bits of the chip may be shorter than those of the terminal by up to
153/160, and longer by up to 160/153. -/
theorem understand_iff (rate clk div : Nat) (hr : 0 < rate) (hc : 0 < clk) (hd : 0 < div) :
    Understand rate clk div ↔ 153 * (div * rate) < 160 * clk ∧ 153 * clk < 160 * (div * rate) := by
  have e : ∀ m, div * (2 * rate * m) = 2 * (div * rate * m) := by
    intro m; rw [Nat.mul_assoc, Nat.mul_left_comm, Nat.mul_assoc]
  have hp : 0 < div * rate := Nat.mul_pos hd hr
  have e' : ∀ m, clk * (2 * m) = 2 * (clk * m) := fun m => Nat.mul_left_comm ..
  generalize div * rate = b at *
  constructor
  · intro h
    obtain ⟨h1, h2⟩ := h 8 (by omega)
    rw [e, e'] at h1 h2
    rw [hears_iff _ _ (by omega) (by omega)] at h1 h2
    omega
  · rintro ⟨h1, h2⟩ m hm
    rw [e, e']
    have g1 : 153 * (b * m) < 160 * (clk * m) := by
      rw [← Nat.mul_assoc, ← Nat.mul_assoc]; exact Nat.mul_lt_mul_of_pos_right h1 hm
    have g2 : 153 * (clk * m) < 160 * (b * m) := by
      rw [← Nat.mul_assoc, ← Nat.mul_assoc]; exact Nat.mul_lt_mul_of_pos_right h2 hm
    rw [hears_iff _ _ (by omega) (by omega), hears_iff _ _ (by omega) (by omega)]
    omega

end Uavcan.Serial
