import Verif.Spec.FrameTest
import Verif.Props.Suite

/-!
# C138: what the validation suite says about classes for CAN frames

Continues C83 to C85 (`Props/Suite`) and C137.
-/

namespace Uavcan.FrameTest
open Spec Suite

/-- The property as stated in `properties.jsonl`: for the MTUs with which the tests can be used (C83) they accept the right classes and no others. -/
def C138_Statement : Prop :=
  ∀ (mtu : Nat), 8 ≤ mtu → FdLength mtu → ∀ (σ : Type) (c : FrameClass σ mtu), passes c = true ↔ RightFrame c

theorem fdLength_le64 {n : Nat} (h : FdLength n) : n ≤ 64 := by unfold FdLength at h; omega

/-- The loop of `GetDLC` passes for every object of the library's class. -/
theorem loop_passes {mtu : Nat} (h : mtu ≤ 64) : ∀ n (f : Can.Frame mtu), passed (getDLCTestLoop n f) = true := by
  have key : ∀ l, ∃ e, Can.lengthToDlc mtu l = .ok e ∧ Can.lengthToDlc mtu (if l < mtu then l else mtu) = .ok e ∧ (l = 0 → e = 0) := by
    have t : ∀ m, m < 65 → ∃ e, Can.index Can.lengthToDlcTable m = .ok e ∧ (m = 0 → e = 0) := by
      have : ∀ m, m < 65 → (match Can.index Can.lengthToDlcTable m with | .ok e => decide (m = 0 → e = 0) | _ => false) = true := by decide
      intro m hm
      have := this m hm
      cases he : Can.index Can.lengthToDlcTable m with
      | ok e => rw [he] at this; exact ⟨e, rfl, of_decide_eq_true this⟩
      | ub => rw [he] at this; cases this
    intro l
    obtain ⟨e, he, hz⟩ := t (min l mtu) (by omega)
    refine ⟨e, ?_, ?_, fun hl => hz (by omega)⟩
    · unfold Can.lengthToDlc
      by_cases hl : l > mtu
      · rw [if_pos hl, ← he, Nat.min_eq_right (by omega)]
      · rw [if_neg hl, ← he, Nat.min_eq_left (by omega)]
    · unfold Can.lengthToDlc
      by_cases hl : l < mtu
      · rw [if_pos hl, if_neg (by omega), ← he, Nat.min_eq_left (by omega)]
      · rw [if_neg hl, if_neg (by omega), ← he, Nat.min_eq_right (by omega)]
  intro n
  induction n with
  | zero =>
    intro f
    obtain ⟨e, h1, -, h3⟩ := key 0
    have h3 := h3 rfl
    subst h3
    show passed (do let f ← OptionT.lift (f.setDataLength 0); ASSERT (f.getDLC == 0)) = true
    have : f.setDataLength 0 = .ok { f with dlc := 0 } := by unfold Can.Frame.setDataLength; rw [h1]; rfl
    rw [this]; rfl
  | succ n ih =>
    intro f
    obtain ⟨e, h1, h2, -⟩ := key (n + 1)
    have hs : f.setDataLength (n + 1) = .ok { f with dlc := e } := by unfold Can.Frame.setDataLength; rw [h1]; rfl
    have : getDLCTestLoop (n + 1) f = getDLCTestLoop n { f with dlc := e } := by
      show (do
        let f ← OptionT.lift (f.setDataLength (n + 1))
        let e ← OptionT.lift (Can.lengthToDlc mtu (if n + 1 < mtu then n + 1 else mtu))
        ASSERT (f.getDLC == e)
        getDLCTestLoop n f) = _
      rw [hs, h2]
      show (do
        ASSERT (e == e)
        getDLCTestLoop n { f with dlc := e }) = _
      rw [show (e == e) = true from beq_self_eq_true e]
      rfl
    rw [this]
    exact ih _

/-- C138: two of the twelve tests pass for every class. -/
theorem C138_two_say_nothing {σ : Type} {mtu : Nat} (hm : 8 ≤ mtu) (hf : FdLength mtu) (c : FrameClass σ mtu) : getDLC c = true ∧ frameNotEqualWithFlags c = true := by
  refine ⟨loop_passes (fdLength_le64 hf) _ _, ?_⟩
  obtain ⟨a, ha⟩ := (C83_frames_partial mtu (fdLength_le64 hf)).2 ⟨hm, hf⟩ FrameNotEqualWithFlags (by simp [frameTests])
  unfold frameNotEqualWithFlags passed
  rw [ha]

theorem setLengths_some {σ : Type} {mtu : Nat} {c : FrameClass σ mtu} (h : ∀ f n, (n ≤ 8 → n ≤ c.getDataLength (c.setDataLength f n)) ∧ c.getDataLength (c.setDataLength f n) ≤ mtu) :
    ∀ is f, (is = [] → c.getDataLength f ≤ mtu) → ∃ g, setLengths c is f = some g ∧ c.getDataLength g ≤ mtu := by
  intro is
  induction is with
  | nil => exact fun f hf => ⟨f, rfl, hf rfl⟩
  | cons i is ih =>
    intro f _
    unfold setLengths
    rw [if_neg (fun hx => hx.2 ((h f i).1 hx.1))]
    exact ih _ fun _ => (h f i).2

theorem setDataLength_true {σ : Type} {mtu : Nat} {c : FrameClass σ mtu} (h : ∀ f n, (n ≤ 8 → n ≤ c.getDataLength (c.setDataLength f n)) ∧ c.getDataLength (c.setDataLength f n) ≤ mtu) :
    setDataLength c = true := by
  obtain ⟨g, h1, h2⟩ := setLengths_some h (List.range (Can.FDMaxFrameSizeBytes + 1)) c.dflt (fun hx => by simp [List.range_succ] at hx)
  unfold setDataLength
  rw [h1]
  exact decide_eq_true h2

/-- The tests of constructors pass for classes that store rightly. -/
theorem storage_pass {σ : Type} {mtu : Nat} (hm : 8 ≤ mtu) {c : FrameClass σ mtu} (h : RightStorage c) : initialization c = true ∧ initWithData c = true ∧ initWithNull c = true ∧ initWithTimestamp c = true := by
  have t1 : initialization c = true := by
    obtain ⟨⟨a1, a2, a3, -⟩, a4⟩ := h.dflt
    unfold initialization
    rw [a1, a2, a3]
    simp only [beq_self_eq_true, Bool.true_and, List.all_eq_true, List.mem_range, beq_iff_eq]
    exact a4
  have t2 : initWithData c = true := by
    obtain ⟨a1, a2, -, a4⟩ := h.ofData 1 [0, 1, 2, 3, 4, 5, 6, 7, 8] 5 (by decide) (by decide) (by show 5 ≤ mtu; omega) (by decide)
    have a5 : c.getDataLength (c.ofData 1 (some [0, 1, 2, 3, 4, 5, 6, 7, 8]) 5) = 5 := by rw [h.getDataLength, a2]; rfl
    unfold initWithData
    simp only [a1, a2, a5, beq_self_eq_true, Bool.true_and, List.all_eq_true, List.mem_range, beq_iff_eq]
    intro i hi
    rw [a4 i hi (by show i < 9; omega)]
    match i, hi with
    | 0, _ => rfl
    | 1, _ => rfl
    | 2, _ => rfl
    | 3, _ => rfl
    | 4, _ => rfl
  have t3 : initWithNull c = true := by
    obtain ⟨a1, a2, -, -⟩ := h.ofNull 1 5 (by decide)
    unfold initWithNull
    simp only [a1, a2, h.getDataLength]
    rfl
  have t4 : initWithTimestamp c = true := by
    unfold initWithTimestamp
    rw [(h.ofNullAt 1 0 32 (by decide)).2.2.1]
    rfl
  exact ⟨t1, t2, t3, t4⟩

theorem setLengths_range {σ : Type} {mtu : Nat} (c : FrameClass σ mtu) (f : σ) : ∀ n g, setLengths c (List.range n) f = some g ↔
    g = (List.range n).foldl c.setDataLength f ∧ ∀ i, i < n → i ≤ 8 → i ≤ c.getDataLength ((List.range (i + 1)).foldl c.setDataLength f) := by
  have app : ∀ is x f, setLengths c (is ++ [x]) f = (setLengths c is f).bind fun g => setLengths c [x] g := by
    intro is x
    induction is with
    | nil => exact fun f => rfl
    | cons i is ih =>
      intro f
      rw [List.cons_append]
      unfold setLengths
      simp only
      split
      · rfl
      · exact ih _
  intro n
  induction n with
  | zero => exact fun g => ⟨fun h => ⟨(Option.some.inj h).symm, fun i hi => absurd hi (Nat.not_lt_zero _)⟩, fun h => by rw [h.1]; rfl⟩
  | succ n ih =>
    intro g
    rw [List.range_succ, app, Option.bind_eq_some_iff]
    have last : ∀ k, setLengths c [n] k = some g ↔ g = c.setDataLength k n ∧ (n ≤ 8 → n ≤ c.getDataLength (c.setDataLength k n)) := by
      intro k
      show (if n ≤ Can.Type20MaxFrameSizeBytes ∧ ¬ n ≤ c.getDataLength (c.setDataLength k n) then none else some (c.setDataLength k n)) = some g ↔ _
      by_cases hx : n ≤ Can.Type20MaxFrameSizeBytes ∧ ¬ n ≤ c.getDataLength (c.setDataLength k n)
      · rw [if_pos hx]
        exact ⟨fun h => (nomatch h), fun h => absurd (h.2 hx.1) hx.2⟩
      · rw [if_neg hx]
        constructor
        · exact fun h => ⟨(Option.some.inj h).symm, fun h8 => Decidable.byContradiction fun hn => hx ⟨h8, hn⟩⟩
        · exact fun h => by rw [h.1]
    rw [← List.range_succ]
    constructor
    · rintro ⟨k, h1, h2⟩
      obtain ⟨rfl, k1⟩ := (ih k).1 h1
      obtain ⟨rfl, k2⟩ := (last _).1 h2
      have e : c.setDataLength ((List.range n).foldl c.setDataLength f) n = (List.range (n + 1)).foldl c.setDataLength f := by rw [List.range_succ, List.foldl_append]; rfl
      refine ⟨e, fun i hi h8 => ?_⟩
      by_cases hin : i < n
      · exact k1 i hin h8
      · obtain rfl : i = n := by omega
        rw [← e]
        exact k2 h8
    · rintro ⟨rfl, h2⟩
      have e : c.setDataLength ((List.range n).foldl c.setDataLength f) n = (List.range (n + 1)).foldl c.setDataLength f := by rw [List.range_succ, List.foldl_append]; rfl
      exact ⟨_, (ih _).2 ⟨rfl, fun i hi => h2 i (by omega)⟩, (last _).2 ⟨e.symm, fun h8 => by rw [e]; exact h2 n (Nat.lt_succ_self n) h8⟩⟩

/-- C138, partial: what a class that stores rightly has to answer to pass, and that nothing else is asked: of the length, that after setting 0, 1, …, 64 in turn it was never too small for up to 8
bytes, and is not above the MTU in the end; of the order of frames, that of identifiers 0 and 1; of equality, four pairs. -/
theorem C138_meaning_partial {σ : Type} {mtu : Nat} (hm : 8 ≤ mtu) (hf : FdLength mtu) {c : FrameClass σ mtu} (h : RightStorage c) :
    passes c = true ↔
      (∀ i, i ≤ 8 → i ≤ c.getDataLength ((List.range (i + 1)).foldl c.setDataLength c.dflt)) ∧ c.getDataLength ((List.range 65).foldl c.setDataLength c.dflt) ≤ mtu ∧
      c.dlcToLength 64 = 0 ∧
      (∀ i j, i ≤ 1 → j ≤ 1 → (i, j) ≠ (1, 1) →
        let a := c.ofData i (some [0]) 1
        let b := c.ofData j (some [0]) 1
        c.priorityHigherThan a b = decide (i < j) ∧ c.gt a b = decide (i < j) ∧ c.priorityLowerThan a b = decide (j < i) ∧ c.lt a b = decide (j < i)) ∧
      c.eq (c.ofData 0xFFFFFFFF (some [0, 1, 2, 3, 5, 6, 7, 8]) 8) (c.ofData 0x1FFFFFFF (some [0, 1, 2, 3, 5, 6, 7, 8]) 8) = true ∧
      c.ne (c.ofData 0x1FFFFFFF (some [0, 1, 2, 3, 5, 6, 7, 8]) 8) (c.ofData 0x1FFFFFFF (some [0, 1, 2, 3, 5, 6, 7, 8]) 7) = true ∧
      c.ne (c.ofData 0x1FFFFFFF (some [0, 1, 2, 3, 5, 6, 7, 8]) 8) (c.ofData 0x1FFFFFFF (some [0, 1, 2, 3, 5, 6, 7, 9]) 8) = true ∧
      c.ne (c.ofData 0x1FFFFFFF (some [0, 1, 2, 3, 5, 6, 7, 8]) 8) (c.ofData 0x1FFFFFF1 (some [0, 1, 2, 3, 5, 6, 7, 8]) 8) = true := by
  obtain ⟨g1, g2⟩ := C138_two_say_nothing hm hf c
  obtain ⟨t1, t2, t3, t4⟩ := storage_pass hm h
  have t5 : setDataLength c = true ↔ (∀ i, i ≤ 8 → i ≤ c.getDataLength ((List.range (i + 1)).foldl c.setDataLength c.dflt)) ∧ c.getDataLength ((List.range 65).foldl c.setDataLength c.dflt) ≤ mtu := by
    unfold setDataLength
    have r := setLengths_range c c.dflt 65
    constructor
    · intro hx
      cases hs : setLengths c (List.range (Can.FDMaxFrameSizeBytes + 1)) c.dflt with
      | none => rw [hs] at hx; cases hx
      | some g =>
        rw [hs] at hx
        obtain ⟨rfl, r2⟩ := (r g).1 hs
        exact ⟨fun i hi => r2 i (by omega) hi, of_decide_eq_true hx⟩
    · rintro ⟨h1, h2⟩
      have hs : setLengths c (List.range (Can.FDMaxFrameSizeBytes + 1)) c.dflt = some _ := (r _).2 ⟨rfl, fun i _ h8 => h1 i h8⟩
      rw [hs]
      exact decide_eq_true h2
  have pr : (∀ i j, i ≤ 1 → j ≤ 1 → (i, j) ≠ (1, 1) →
        let a := c.ofData i (some [0]) 1
        let b := c.ofData j (some [0]) 1
        c.priorityHigherThan a b = decide (i < j) ∧ c.gt a b = decide (i < j) ∧ c.priorityLowerThan a b = decide (j < i) ∧ c.lt a b = decide (j < i)) ↔
      priorityHigherThan c = true ∧ priorityLowerThan c = true := by
    unfold priorityHigherThan priorityLowerThan
    simp only [Bool.and_eq_true, Bool.not_eq_true']
    constructor
    · intro hx
      obtain ⟨a1, a2, a3, a4⟩ := hx 0 1 (by decide) (by decide) (by decide)
      obtain ⟨b1, b2, b3, b4⟩ := hx 1 0 (by decide) (by decide) (by decide)
      obtain ⟨c1, c2, c3, c4⟩ := hx 0 0 (by decide) (by decide) (by decide)
      exact ⟨⟨⟨⟨⟨⟨a1, b1⟩, c1⟩, a2⟩, b2⟩, c2⟩, ⟨⟨⟨⟨⟨b3, a3⟩, c3⟩, a4⟩, b4⟩, c4⟩⟩
    · rintro ⟨⟨⟨⟨⟨⟨a1, b1⟩, c1⟩, a2⟩, b2⟩, c2⟩, ⟨⟨⟨⟨⟨b3, a3⟩, c3⟩, a4⟩, b4⟩, c4⟩⟩ i j hi hj hn
      match i, j, hi, hj, hn with
      | 0, 0, _, _, _ => exact ⟨c1, c2, c3, c4⟩
      | 0, 1, _, _, _ => exact ⟨a1, a2, a3, a4⟩
      | 1, 0, _, _, _ => exact ⟨b1, b2, b3, b4⟩
      | 1, 1, _, _, hn => exact absurd rfl hn
  unfold passes
  simp only [t1, t2, t3, t4, g1, g2, Bool.and_eq_true, true_and, and_true, and_assoc]
  rw [t5, and_assoc, pr, dlcToLengthEvil, beq_iff_eq, and_assoc]
  unfold frameEqual frameNotEqual
  simp only [Bool.and_eq_true, and_assoc]
  exact Iff.rfl

/-- C138, partial: right classes pass. Missing: that wrong ones do not, which is false, see `C138_full_statement_fails`. -/
theorem C138_right_pass_partial {σ : Type} {mtu : Nat} (hm : 8 ≤ mtu) (hf : FdLength mtu) {c : FrameClass σ mtu} (h : RightFrame c) : passes c = true := by
  obtain ⟨g1, g2⟩ := C138_two_say_nothing hm hf c
  have p : ∀ id, id < 2 ^ 32 → Holds c (c.ofData id (some [0]) 1) id 1 0 [0] := fun id hi => h.ofData id [0] 1 hi (by decide) (by show 1 ≤ mtu; omega) (by decide)
  have q8 : ∀ id data, id < 2 ^ 32 → data.length = 8 → Holds c (c.ofData id (some data) 8) id 8 0 data := fun id data hi hd => h.ofData id data 8 hi (by decide) hm (by rw [hd]; decide)
  obtain ⟨t1, t2, t3, t4⟩ := storage_pass hm h.toRightStorage
  have t5 : setDataLength c = true := setDataLength_true fun f n => by
    obtain ⟨-, b2, b3⟩ := h.setDataLength f n
    exact ⟨fun hn => by omega, b3 mtu hf (by omega)⟩
  have t7 : dlcToLengthEvil c = true := by
    unfold dlcToLengthEvil
    rw [h.dlcToLength]
    rfl
  have e0 := (p 0 (by decide)).1
  have e1 := (p 1 (by decide)).1
  have no : ∀ {b : Bool} {P : Prop}, (b = true ↔ P) → ¬ P → b = false := fun hb hp => Bool.eq_false_iff.2 fun hx => hp (hb.1 hx)
  have t8 : priorityHigherThan c = true := by
    unfold priorityHigherThan
    simp only [(h.priorityHigherThan _ _).2 (by rw [e0, e1]; decide : c.id (c.ofData 0 (some [0]) 1) % 2 ^ 29 < c.id (c.ofData 1 (some [0]) 1) % 2 ^ 29),
      (h.gt _ _).2 (by rw [e0, e1]; decide : c.id (c.ofData 0 (some [0]) 1) % 2 ^ 29 < c.id (c.ofData 1 (some [0]) 1) % 2 ^ 29),
      no (h.priorityHigherThan _ _) (by rw [e0, e1]; decide : ¬ c.id (c.ofData 1 (some [0]) 1) % 2 ^ 29 < c.id (c.ofData 0 (some [0]) 1) % 2 ^ 29),
      no (h.gt _ _) (by rw [e0, e1]; decide : ¬ c.id (c.ofData 1 (some [0]) 1) % 2 ^ 29 < c.id (c.ofData 0 (some [0]) 1) % 2 ^ 29),
      no (h.priorityHigherThan _ _) (Nat.lt_irrefl (c.id (c.ofData 0 (some [0]) 1) % 2 ^ 29)), no (h.gt _ _) (Nat.lt_irrefl (c.id (c.ofData 0 (some [0]) 1) % 2 ^ 29))]
    rfl
  have t9 : priorityLowerThan c = true := by
    unfold priorityLowerThan
    simp only [(h.priorityLowerThan _ _).2 (by rw [e0, e1]; decide : c.id (c.ofData 0 (some [0]) 1) % 2 ^ 29 < c.id (c.ofData 1 (some [0]) 1) % 2 ^ 29),
      (h.lt _ _).2 (by rw [e0, e1]; decide : c.id (c.ofData 0 (some [0]) 1) % 2 ^ 29 < c.id (c.ofData 1 (some [0]) 1) % 2 ^ 29),
      no (h.priorityLowerThan _ _) (by rw [e0, e1]; decide : ¬ c.id (c.ofData 1 (some [0]) 1) % 2 ^ 29 < c.id (c.ofData 0 (some [0]) 1) % 2 ^ 29),
      no (h.lt _ _) (by rw [e0, e1]; decide : ¬ c.id (c.ofData 1 (some [0]) 1) % 2 ^ 29 < c.id (c.ofData 0 (some [0]) 1) % 2 ^ 29),
      no (h.priorityLowerThan _ _) (Nat.lt_irrefl (c.id (c.ofData 0 (some [0]) 1) % 2 ^ 29)), no (h.lt _ _) (Nat.lt_irrefl (c.id (c.ofData 0 (some [0]) 1) % 2 ^ 29))]
    rfl
  have t10 : frameEqual c = true := by
    obtain ⟨a1, a2, -, a4⟩ := q8 0xFFFFFFFF [0, 1, 2, 3, 5, 6, 7, 8] (by decide) rfl
    obtain ⟨b1, b2, -, b4⟩ := q8 0x1FFFFFFF [0, 1, 2, 3, 5, 6, 7, 8] (by decide) rfl
    refine (h.eq _ _).2 ⟨by rw [a1, b1], by rw [a2, b2], fun i hi => ?_⟩
    rw [h.getDataLength, a2] at hi
    rw [a4 i hi hi, b4 i hi hi]
  have t11 : frameNotEqual c = true := by
    obtain ⟨a1, a2, -, a4⟩ := q8 0x1FFFFFFF [0, 1, 2, 3, 5, 6, 7, 8] (by decide) rfl
    obtain ⟨-, b2, -, -⟩ := h.ofData 0x1FFFFFFF [0, 1, 2, 3, 5, 6, 7, 8] 7 (by decide) (by decide) (by show 7 ≤ mtu; omega) (by decide)
    obtain ⟨-, -, -, d4⟩ := q8 0x1FFFFFFF [0, 1, 2, 3, 5, 6, 7, 9] (by decide) rfl
    obtain ⟨i1, -, -, -⟩ := q8 0x1FFFFFF1 [0, 1, 2, 3, 5, 6, 7, 8] (by decide) rfl
    have n1 := (h.ne _ _).2 (fun hx => absurd hx.2.1 (by rw [a2, b2]; decide) :
      ¬ (c.id (c.ofData 0x1FFFFFFF (some [0, 1, 2, 3, 5, 6, 7, 8]) 8) % 2 ^ 29 = c.id (c.ofData 0x1FFFFFFF (some [0, 1, 2, 3, 5, 6, 7, 8]) 7) % 2 ^ 29 ∧ _ ∧ _))
    have n2 := (h.ne (c.ofData 0x1FFFFFFF (some [0, 1, 2, 3, 5, 6, 7, 8]) 8) (c.ofData 0x1FFFFFFF (some [0, 1, 2, 3, 5, 6, 7, 9]) 8)).2 fun hx => by
      have := hx.2.2 7 (by rw [h.getDataLength, a2]; decide)
      rw [a4 7 (by decide) (by decide), d4 7 (by decide) (by decide)] at this
      exact absurd this (by decide)
    have n3 := (h.ne _ _).2 (fun hx => absurd hx.1 (by rw [a1, i1]; decide) :
      ¬ (c.id (c.ofData 0x1FFFFFFF (some [0, 1, 2, 3, 5, 6, 7, 8]) 8) % 2 ^ 29 = c.id (c.ofData 0x1FFFFFF1 (some [0, 1, 2, 3, 5, 6, 7, 8]) 8) % 2 ^ 29 ∧ _ ∧ _))
    unfold frameNotEqual
    simp only [n1, n2, n3]
    rfl
  unfold passes
  simp only [t1, t2, t3, t4, t5, g1, t7, t8, t9, t10, t11, g2]
  rfl

/-- A class that truncates what is longer than 8 bytes, sets every length to the MTU, takes no code for a length, and decides priority by the last bit of the identifier. -/
def careless {σ : Type} {mtu : Nat} (c : FrameClass σ mtu) : FrameClass σ mtu :=
  { c with
    ofData := fun id data k => c.ofData id data (min k 8)
    ofDataAt := fun id data k t => c.ofDataAt id data (min k 8) t
    setDataLength := fun f _ => c.setDataLength f mtu
    dlcToLength := fun _ => 0
    priorityHigherThan := fun a b => decide (c.id a % 2 < c.id b % 2)
    gt := fun a b => decide (c.id a % 2 < c.id b % 2)
    priorityLowerThan := fun a b => decide (c.id b % 2 < c.id a % 2)
    lt := fun a b => decide (c.id b % 2 < c.id a % 2) }

/-- C138: such a class passes, if the rest of it is right; it is not right. -/
theorem C138_careless_passes {σ : Type} {mtu : Nat} (hm : 8 ≤ mtu) (hf : FdLength mtu) {c : FrameClass σ mtu} (h : RightFrame c) : passes (careless c) = true ∧ ¬ RightFrame (careless c) := by
  have hp := C138_right_pass_partial hm hf h
  have p : ∀ id, id < 2 ^ 32 → Holds c (c.ofData id (some [0]) 1) id 1 0 [0] := fun id hi => h.ofData id [0] 1 hi (by decide) (by show 1 ≤ mtu; omega) (by decide)
  have e0 := (p 0 (by decide)).1
  have e1 := (p 1 (by decide)).1
  obtain ⟨g1, g2⟩ := C138_two_say_nothing hm hf (careless c)
  constructor
  · unfold passes at hp
    simp only [Bool.and_eq_true] at hp
    obtain ⟨⟨⟨⟨⟨⟨⟨⟨⟨⟨⟨t1, t2⟩, t3⟩, t4⟩, -⟩, -⟩, -⟩, -⟩, -⟩, t10⟩, t11⟩, -⟩ := hp
    have t5 : setDataLength (careless c) = true := setDataLength_true (c := careless c) fun f n => by
      obtain ⟨-, b2, b3⟩ := h.setDataLength f mtu
      have b3 := b3 mtu hf (by omega)
      show (n ≤ 8 → n ≤ c.getDataLength (c.setDataLength f mtu)) ∧ c.getDataLength (c.setDataLength f mtu) ≤ mtu
      omega
    have t8 : priorityHigherThan (careless c) = true := by
      show ((decide (c.id (c.ofData 0 (some [0]) 1) % 2 < c.id (c.ofData 1 (some [0]) 1) % 2) && !decide (c.id (c.ofData 1 (some [0]) 1) % 2 < c.id (c.ofData 0 (some [0]) 1) % 2) &&
        !decide (c.id (c.ofData 0 (some [0]) 1) % 2 < c.id (c.ofData 0 (some [0]) 1) % 2) && decide (c.id (c.ofData 0 (some [0]) 1) % 2 < c.id (c.ofData 1 (some [0]) 1) % 2) &&
        !decide (c.id (c.ofData 1 (some [0]) 1) % 2 < c.id (c.ofData 0 (some [0]) 1) % 2) && !decide (c.id (c.ofData 0 (some [0]) 1) % 2 < c.id (c.ofData 0 (some [0]) 1) % 2)) : Bool) = true
      rw [e0, e1]; rfl
    have t9 : priorityLowerThan (careless c) = true := by
      show ((decide (c.id (c.ofData 0 (some [0]) 1) % 2 < c.id (c.ofData 1 (some [0]) 1) % 2) && !decide (c.id (c.ofData 1 (some [0]) 1) % 2 < c.id (c.ofData 0 (some [0]) 1) % 2) &&
        !decide (c.id (c.ofData 0 (some [0]) 1) % 2 < c.id (c.ofData 0 (some [0]) 1) % 2) && !decide (c.id (c.ofData 1 (some [0]) 1) % 2 < c.id (c.ofData 0 (some [0]) 1) % 2) &&
        decide (c.id (c.ofData 0 (some [0]) 1) % 2 < c.id (c.ofData 1 (some [0]) 1) % 2) && !decide (c.id (c.ofData 0 (some [0]) 1) % 2 < c.id (c.ofData 0 (some [0]) 1) % 2)) : Bool) = true
      rw [e0, e1]; rfl
    unfold passes
    simp only [Bool.and_eq_true]
    exact ⟨⟨⟨⟨⟨⟨⟨⟨⟨⟨⟨t1, t2⟩, t3⟩, t4⟩, t5⟩, g1⟩, rfl⟩, t8⟩, t9⟩, t10⟩, t11⟩, g2⟩
  · intro hx
    have := (hx.priorityHigherThan (c.ofData 2 (some [0]) 1) (c.ofData 4 (some [0]) 1)).2 (by
      show c.id (c.ofData 2 (some [0]) 1) % 2 ^ 29 < c.id (c.ofData 4 (some [0]) 1) % 2 ^ 29
      rw [(p 2 (by decide)).1, (p 4 (by decide)).1]; decide)
    have this : decide (c.id (c.ofData 2 (some [0]) 1) % 2 < c.id (c.ofData 4 (some [0]) 1) % 2) = true := this
    rw [(p 2 (by decide)).1, (p 4 (by decide)).1] at this
    cases this

/-- A frame. -/
structure Ideal where
  id : Nat
  dlc : Nat
  time : Nat
  byte : Nat → BitVec 8

/-- The least code for `n` bytes. -/
def leastCode (n : Nat) : Nat :=
  if n ≤ 8 then n else if n ≤ 12 then 9 else if n ≤ 16 then 10 else if n ≤ 20 then 11 else if n ≤ 24 then 12 else if n ≤ 32 then 13 else if n ≤ 48 then 14 else 15

/-- Constructor of the class below. -/
def Ideal.make (id : Nat) (data : Option (List (BitVec 8))) (k t : Nat) : Ideal :=
  match data with
  | none => ⟨id, 0, t, fun _ => 0⟩
  | some data => ⟨id, k, t, fun i => data.getD i 0⟩

/-- Equality of the class below. -/
def Ideal.same (a b : Ideal) : Bool :=
  a.id % 2 ^ 29 == b.id % 2 ^ 29 && a.dlc == b.dlc && (List.range (codeLength a.dlc)).all fun i => a.byte i == b.byte i

/-- A class that is right. -/
def ideal (mtu : Nat) : FrameClass Ideal mtu where
  dflt := ⟨0, 0, 0, fun _ => 0⟩
  ofData id data k := .make id data k 0
  ofDataAt := .make
  id := Ideal.id
  byte := Ideal.byte
  timestamp := Ideal.time
  getDLC := Ideal.dlc
  getDataLength f := codeLength f.dlc
  setDataLength f n := { f with dlc := leastCode (min n mtu) }
  dlcToLength := codeLength
  priorityHigherThan a b := decide (a.id % 2 ^ 29 < b.id % 2 ^ 29)
  gt a b := decide (a.id % 2 ^ 29 < b.id % 2 ^ 29)
  priorityLowerThan a b := decide (b.id % 2 ^ 29 < a.id % 2 ^ 29)
  lt a b := decide (b.id % 2 ^ 29 < a.id % 2 ^ 29)
  eq := Ideal.same
  ne a b := !Ideal.same a b
  base _ := Can.Frame.default

theorem same_iff (a b : Ideal) : Ideal.same a b = true ↔ a.id % 2 ^ 29 = b.id % 2 ^ 29 ∧ a.dlc = b.dlc ∧ ∀ i, i < codeLength a.dlc → a.byte i = b.byte i := by
  simp only [Ideal.same, Bool.and_eq_true, beq_iff_eq, List.all_eq_true, List.mem_range, and_assoc]

theorem leastCode_right : ∀ {n}, n ≤ 64 → IsLeastAtLeast FdLength n (codeLength (leastCode n)) := by
  have t : ∀ n, n < 65 → FdLength (codeLength (leastCode n)) ∧ n ≤ codeLength (leastCode n) ∧ ∀ k, k < 65 → FdLength k → n ≤ k → codeLength (leastCode n) ≤ k := by decide +kernel
  intro n hn
  obtain ⟨h1, h2, h3⟩ := t n (by omega)
  exact ⟨h1, h2, fun k hk => h3 k (by have := fdLength_le64 hk; omega) hk⟩

theorem ideal_right {mtu : Nat} (h : mtu ≤ 64) : RightFrame (ideal mtu) := by
  have hb : ∀ (data : List (BitVec 8)) k i (_ : i < codeLength k) (h : i < data.length), data.getD i 0 = data[i] := fun data k i _ h => by simp [h]
  refine ⟨⟨⟨⟨rfl, rfl, rfl, fun i _ h => absurd h (Nat.not_lt_zero _)⟩, fun _ _ => rfl⟩, fun id data k _ _ _ _ => ⟨rfl, rfl, rfl, hb data k⟩, fun id data k t _ _ _ _ => ⟨rfl, rfl, rfl, hb data k⟩,
    fun id k _ => ⟨rfl, rfl, rfl, fun i _ h => absurd h (Nat.not_lt_zero _)⟩, fun id k t _ => ⟨rfl, rfl, rfl, fun i _ h => absurd h (Nat.not_lt_zero _)⟩, fun _ => rfl⟩,
    fun f n => leastCode_right (by omega), fun _ _ => ⟨rfl, rfl, fun _ _ => rfl⟩, fun _ => rfl, fun _ _ => decide_eq_true_iff, fun _ _ => decide_eq_true_iff, fun _ _ => decide_eq_true_iff,
    fun _ _ => decide_eq_true_iff, same_iff, fun a b => ?_⟩
  show (!Ideal.same a b) = true ↔ _
  rw [Bool.not_eq_true', Bool.eq_false_iff]
  exact not_congr (same_iff a b)

/-- A right class for CAN FD passes, and with four defects it passes as well. -/
example : passes (ideal 64) = true ∧ passes (careless (ideal 64)) = true :=
  ⟨C138_right_pass_partial (by decide) (by decide) (ideal_right (by decide)), (C138_careless_passes (by decide) (by decide) (ideal_right (by decide))).1⟩

/-- C138 is false, for every MTU. -/
theorem C138_full_statement_fails : ¬ C138_Statement ∧ ∀ mtu, 8 ≤ mtu → FdLength mtu → ∃ c : FrameClass Ideal mtu, passes c = true ∧ ¬ RightFrame c := by
  have k : ∀ mtu, 8 ≤ mtu → FdLength mtu → ∃ c : FrameClass Ideal mtu, passes c = true ∧ ¬ RightFrame c := fun mtu hm hf =>
    ⟨careless (ideal mtu), C138_careless_passes hm hf (ideal_right (fdLength_le64 hf))⟩
  refine ⟨fun h => ?_, k⟩
  obtain ⟨c, h1, h2⟩ := k 8 (by decide) (by decide)
  exact h2 ((h 8 (by decide) (by decide) _ c).1 h1)

end Uavcan.FrameTest
