import Verif.Spec.Trace

/-!
# Lemmas for `Props/Trace`
-/

namespace Uavcan.SocketCan
open Can Time Spec

/-! ## Lines -/

theorem linesOf_line (acc l rest : List Char) (h : '\n' ∉ l) : linesOf acc (l ++ '\n' :: rest) = (acc ++ l) :: linesOf [] rest := by
  induction l generalizing acc with
  | nil => simp [linesOf]
  | cons c l ih =>
    have hc : c ≠ '\n' := fun e => h (by simp [e])
    have := ih (acc ++ [c]) (fun e => h (List.mem_cons_of_mem _ e))
    simpa [linesOf, hc] using this

/-- A whole line with what it tells. -/
def Line (o : List Char) (t : Option (Nat × Nat)) : Prop := ∃ l, o = l ++ ['\n'] ∧ '\n' ∉ l ∧ tells l = t

theorem told_lines (outs : List (List Char)) (f : List Char → Option (Nat × Nat)) (h : ∀ o ∈ outs, Line o (f o)) :
    told outs.flatten = outs.filterMap f := by
  unfold told
  induction outs with
  | nil => rfl
  | cons o outs ih =>
    obtain ⟨l, hl, hn, ht⟩ := h o List.mem_cons_self
    have ih := ih fun o ho => h o (List.mem_cons_of_mem _ ho)
    have e : (o :: outs).flatten = l ++ '\n' :: outs.flatten := by rw [hl]; simp
    rw [e, linesOf_line [] l _ hn, List.nil_append, List.filterMap_cons, ih, List.filterMap_cons, ht]

theorem told_append (a b : List (List Char)) (ta tb : List (Nat × Nat)) (ha : ∀ o ∈ a, ∃ t, Line o t) (h1 : told a.flatten = ta) (h2 : told b.flatten = tb) :
    told (a ++ b).flatten = ta ++ tb := by
  subst h1 h2
  induction a with
  | nil => rfl
  | cons o a ih =>
    obtain ⟨t, l, hl, hn, ht⟩ := ha o List.mem_cons_self
    have ih := ih fun o ho => ha o (List.mem_cons_of_mem _ ho)
    unfold told at ih ⊢
    have e : ∀ r : List Char, o ++ r = l ++ '\n' :: r := fun r => by rw [hl]; simp
    rw [List.cons_append, List.flatten_cons, List.flatten_cons, e, e, linesOf_line [] l _ hn, linesOf_line [] l _ hn, List.filterMap_cons,
      List.filterMap_cons, ih]
    cases tells ([] ++ l) <;> rfl

theorem decU_digit (n : Nat) (c : Char) (h : c ∈ decU n) : c.isDigit = true := Nat.isDigit_of_mem_toDigits (by decide) (by decide) h

theorem decU_value (n : Nat) : value (decU n) = n := Nat.ofDigitChars_ten_toDigits

theorem decU_nl (n : Nat) : '\n' ∉ decU n := fun h => absurd (decU_digit n _ h) (by decide)

theorem decD_nl (n : Nat) : '\n' ∉ decD n := by
  unfold decD
  split
  · exact decU_nl n
  · intro h
    rcases List.mem_cons.1 h with h | h
    · exact absurd h (by decide)
    · exact decU_nl _ h

theorem takeWhile_digits (n : Nat) (c : Char) (rest : List Char) (hc : c.isDigit = false) :
    (decU n ++ c :: rest).takeWhile Char.isDigit = decU n ∧ (decU n ++ c :: rest).dropWhile Char.isDigit = c :: rest := by
  have h := decU_digit n
  generalize decU n = l at h
  induction l with
  | nil => simp [hc]
  | cons x l ih =>
    have hx := h x List.mem_cons_self
    obtain ⟨a, b⟩ := ih fun c hc => h c (List.mem_cons_of_mem _ hc)
    simp [hx, a, b]

theorem after_append (p l : List Char) : after p (p ++ l) = some l := by
  induction p with
  | nil => rfl
  | cons c p ih => simp [after, ih]

theorem rxLine_line (id : BitVec 32) (t : TimePoint) : Line (rxLine id t) (some (id.toNat, t.usec.toNat)) := by
  refine ⟨"SocketCANInterface: rx [".toList ++ (decU id.toNat ++ ':' :: (decU t.usec.toNat ++ ']' :: ['\r'])), ?_, ?_, ?_⟩
  · unfold rxLine traceLine TimePoint.toMicrosecond
    simp
  · intro h
    simp only [List.mem_append, List.mem_cons] at h
    rcases h with h | h | h | h | h | h
    · revert h; decide
    · exact decU_nl _ h
    · revert h; decide
    · exact decU_nl _ h
    · revert h; decide
    · revert h; decide
  · unfold tells
    rw [after_append]
    simp only []
    obtain ⟨a, b⟩ := takeWhile_digits id.toNat ':' (decU t.usec.toNat ++ ']' :: ['\r']) (by decide)
    obtain ⟨c, -⟩ := takeWhile_digits t.usec.toNat ']' ['\r'] (by decide)
    rw [a, b, List.drop_succ_cons, List.drop_zero, c, decU_value, decU_value]

theorem unknown_line (a b : List Char) (pre : String) (hp : '\n' ∉ pre.toList) (ha : '\n' ∉ a)
    (hd : ∀ l, after "SocketCANInterface: rx [".toList ("SocketCANInterface: ".toList ++ pre.toList ++ l) = none) (hb : '\n' ∉ b) :
    Line (traceLine "SocketCANInterface" (pre.toList ++ a ++ b)) none := by
  refine ⟨"SocketCANInterface: ".toList ++ pre.toList ++ (a ++ b ++ ['\r']), ?_, ?_, ?_⟩
  · unfold traceLine; simp
  · intro h
    simp only [List.mem_append] at h
    rcases h with (h | h) | ((h | h) | h)
    · revert h; decide
    · exact hp h
    · exact ha h
    · exact hb h
    · revert h; decide
  · unfold tells
    rw [hd]

theorem unknownHeader_line (type size : Nat) : Line (unknownHeader type size) none := by
  have := unknown_line (decD type) (", size=".toList ++ decU size) "Unknown header found. type=" (by decide) (decD_nl _) (fun l => rfl) (by
    intro h
    rcases List.mem_append.1 h with h | h
    · revert h; decide
    · exact decU_nl _ h)
  unfold unknownHeader
  rw [List.append_assoc]
  exact this

theorem unknownLevel_line (level : Nat) : Line (unknownLevel level) none := by
  have := unknown_line (decD level) [] "Unknown header level. level=" (by decide) (decD_nl _) (fun l => rfl) (by simp)
  rw [List.append_nil] at this
  exact this

theorem closing_line : Line closing none := ⟨"SocketCANInterface: closing socket.\r".toList, by decide, by decide, by decide⟩

theorem notSupported_line (o n : String) (h : ValidEvent (.unsupported o n)) : Line (notSupported o n) none := by
  obtain ⟨ho, hn⟩ := h
  refine ⟨"SocketCANInterfaceManager: ".toList ++ (o.toList ++ " was not supported for socket ".toList ++ n.toList ++ ['\r']), ?_, ?_, rfl⟩
  · unfold notSupported traceLine; simp
  · intro h
    simp only [List.mem_append] at h
    rcases h with h | (((h | h) | h) | h)
    · revert h; decide
    · simp only [List.mem_cons, List.not_mem_nil, or_false] at ho
      rcases ho with rfl | rfl | rfl <;> (revert h; decide)
    · revert h; decide
    · exact hn h
    · revert h; decide

/-! ## The loops -/

theorem bindOk {α β : Type} {x : Outcome α} {f : α → Outcome β} {b : β} (h : x >>= f = .ok b) : ∃ a, x = .ok a ∧ f a = .ok b := by
  cases x with
  | ub u => cases h
  | ok a => exact ⟨a, rfl, h⟩

theorem ctlOneT_ok (h : Hdr) (off : Nat) (t : TimePoint) (st : Statistics) (p : TimePoint × Statistics × Nat) (hp : ctlOne h off t st = .ok p) :
    ∃ out, ctlOneT h off = .ok out ∧ h.load off 8 = .ok p.2.2 ∧ ∀ o ∈ out, Line o none := by
  unfold ctlOne at hp
  obtain ⟨len, h1, hp⟩ := bindOk hp
  obtain ⟨level, h2, hp⟩ := bindOk hp
  obtain ⟨type, h3, hp⟩ := bindOk hp
  have hlen : p.2.2 = len := by
    split at hp
    · split at hp
      · obtain ⟨_, -, hp⟩ := bindOk hp
        obtain ⟨_, -, hp⟩ := bindOk hp
        cases hp; rfl
      · split at hp
        · obtain ⟨_, -, hp⟩ := bindOk hp
          cases hp; rfl
        · cases hp; rfl
    · cases hp; rfl
  unfold ctlOneT
  rw [h1, h2, h3, hlen]
  simp only [Outcome.ok_bind, Outcome.pure_eq]
  split
  · split
    · exact ⟨_, rfl, trivial, fun o ho => by cases ho⟩
    · split
      · exact ⟨_, rfl, trivial, fun o ho => by cases ho⟩
      · exact ⟨_, rfl, trivial, fun o ho => by rw [List.mem_singleton.1 ho]; exact unknownHeader_line _ _⟩
  · exact ⟨_, rfl, trivial, fun o ho => by rw [List.mem_singleton.1 ho]; exact unknownLevel_line _⟩

theorem ctlLoopT_ok (h : Hdr) (n : Nat) : ∀ (off : Nat) (t : TimePoint) (st : Statistics) (p : TimePoint × Statistics), h.controllen - off = n →
    ctlLoop h off t st = .ok p → ∃ out, ctlLoopT h off = .ok out ∧ ∀ o ∈ out, Line o none := by
  induction n using Nat.strongRecOn with
  | _ n ih =>
    intro off t st p hn hp
    unfold ctlLoop at hp
    cases h1 : ctlOne h off t st with
    | ub u => rw [h1] at hp; cases hp
    | ok q =>
      obtain ⟨t', st', len⟩ := q
      rw [h1] at hp
      obtain ⟨out, e1, e2, e3⟩ := ctlOneT_ok h off t st _ h1
      unfold ctlLoopT
      rw [e1, e2]
      simp only at hp ⊢
      split at hp
      · rename_i hnx
        split
        · exact ⟨out, rfl, e3⟩
        · rename_i off' hnx'
          rw [hnx] at hnx'; cases hnx'
      · rename_i off' hnx
        obtain ⟨out', e4, e5⟩ := ih (h.controllen - off') (by have := nextHdr_lt hnx; omega) off' t' st' p rfl hp
        split
        · rename_i hnx'
          rw [hnx] at hnx'; cases hnx'
        · rename_i off'' hnx'
          have : off'' = off' := by rw [hnx] at hnx'; exact (Option.some.inj hnx').symm
          subst this
          rw [e4]
          refine ⟨out ++ out', rfl, fun o ho => ?_⟩
          rcases List.mem_append.1 ho with ho | ho
          · exact e3 o ho
          · exact e5 o ho

theorem readCtlT_ok (h : Hdr) (st : Statistics) (p : TimePoint × Statistics) (hp : readCtl h st = .ok p) :
    ∃ out, readCtlT h = .ok out ∧ ∀ o ∈ out, Line o none := by
  unfold readCtl at hp
  unfold readCtlT
  split at hp
  · rename_i hc
    rw [if_pos hc]
    exact ctlLoopT_ok h _ 0 _ _ _ rfl hp
  · rename_i hc
    rw [if_neg hc]
    exact ⟨[], rfl, fun o ho => by cases ho⟩

theorem told_none (outs : List (List Char)) (h : ∀ o ∈ outs, Line o none) : told outs.flatten = [] := by
  rw [told_lines outs (fun _ => none) h]
  simp

/-- The frames delivered so far. -/
def deliveredSoFar (s : ReadState) : List (Nat × Nat) := (s.out_frames.toList.take s.out_frames_read).map idAndTime

theorem readOneRawT_ok (buf : CanfdFrame) (h : Hdr) (s s' : ReadState) (hs : readOneRaw buf h s = .ok s') :
    ∃ out, readOneRawT buf h s = .ok (s', out) ∧ (∀ o ∈ out, ∃ t, Line o t) ∧ deliveredSoFar s' = deliveredSoFar s ++ told out.flatten := by
  have hs0 := hs
  unfold readOneRaw at hs
  split at hs
  case isFalse => cases hs
  case isTrue hr =>
    obtain ⟨⟨t, st⟩, h1, hs⟩ := bindOk hs
    obtain ⟨ctl, e1, e2⟩ := readCtlT_ok h s.stats _ h1
    unfold readOneRawT
    rw [hs0, e1, h1]
    simp only [Outcome.ok_bind, Outcome.pure_eq] at hs ⊢
    by_cases he : buf.can_id &&& CAN_ERR_FLAG ≠ 0
    · rw [if_pos he] at hs ⊢
      cases hs
      refine ⟨ctl, rfl, fun o ho => ⟨_, e2 o ho⟩, ?_⟩
      rw [told_none ctl e2, List.append_nil]
      rfl
    · rw [if_neg he] at hs ⊢
      by_cases hf : buf.can_id &&& CAN_EFF_MASK ≠ 0
      · rw [if_pos hf] at hs ⊢
        obtain ⟨tmp, h2, hs⟩ := bindOk hs
        obtain ⟨f, h3, hs⟩ := bindOk hs
        cases hs
        have hf1 : f.id = tmp.id ∧ f.timestamp = tmp.timestamp := by
          unfold Frame.assign at h3
          obtain ⟨d, -, h3⟩ := bindOk h3
          cases h3
          exact ⟨rfl, rfl⟩
        have hf2 : tmp.id = buf.can_id ∧ tmp.timestamp = t := by
          unfold Frame.ofData at h2
          obtain ⟨d, -, h2⟩ := bindOk h2
          cases h2
          exact ⟨rfl, rfl⟩
        refine ⟨_, rfl, ?_, ?_⟩
        · intro o ho
          rcases List.mem_append.1 ho with ho | ho
          · exact ⟨_, e2 o ho⟩
          · rw [List.mem_singleton.1 ho]; exact ⟨_, rxLine_line _ _⟩
        · rw [told_append ctl [rxLine buf.can_id t] [] [(buf.can_id.toNat, t.usec.toNat)] (fun o ho => ⟨_, e2 o ho⟩) (told_none ctl e2) (by
            have := told_lines [rxLine buf.can_id t] (fun _ => some (buf.can_id.toNat, t.usec.toNat)) (fun o ho => by
              rw [List.mem_singleton.1 ho]; exact rxLine_line _ _)
            rw [this]; rfl)]
          unfold deliveredSoFar
          have hlt : s.out_frames_read < s.out_frames.toList.length := by simpa using hr
          have : (s.out_frames.set s.out_frames_read f).toList.take (s.out_frames_read + 1) =
              s.out_frames.toList.take s.out_frames_read ++ [f] := by
            rw [Vector.toList_set, List.take_succ_eq_append_getElem (by simpa using hlt), List.take_set_of_le (Nat.le_refl _), List.getElem_set_self]
          simp only [this, List.map_append, List.map_cons, List.map_nil, List.nil_append]
          unfold idAndTime
          rw [hf1.1, hf1.2, hf2.1, hf2.2]
      · rw [if_neg hf] at hs ⊢
        cases hs
        refine ⟨ctl, rfl, fun o ho => ⟨_, e2 o ho⟩, ?_⟩
        rw [told_none ctl e2, List.append_nil]
        rfl

theorem readLoopRawT_ok (bufs : Vector CanfdFrame FramesLen) (hs : Vector Hdr FramesLen) (n : Nat) : ∀ (i : Nat) (s s' : ReadState),
    readLoopRaw bufs hs n i s = .ok s' → ∃ out, readLoopRawT bufs hs n i s = .ok (s', out) ∧ (∀ o ∈ out, ∃ t, Line o t) ∧
      deliveredSoFar s' = deliveredSoFar s ++ told out.flatten := by
  induction n with
  | zero =>
    intro i s s' h
    cases h
    exact ⟨[], rfl, fun o ho => absurd ho (by simp), by simp [told, linesOf]⟩
  | succ n ih =>
    intro i s s' h
    unfold readLoopRaw at h
    unfold readLoopRawT
    split at h
    · rename_i hi
      rw [dif_pos hi]
      obtain ⟨s1, h1, h⟩ := bindOk h
      obtain ⟨o1, e1, e2, e3⟩ := readOneRawT_ok _ _ _ _ h1
      obtain ⟨o2, f1, f2, f3⟩ := ih _ _ _ h
      rw [e1]
      simp only [Outcome.ok_bind]
      rw [f1]
      refine ⟨o1 ++ o2, rfl, ?_, ?_⟩
      · intro o ho
        rcases List.mem_append.1 ho with ho | ho
        · exact e2 o ho
        · exact f2 o ho
      · rw [f3, e3, told_append o1 o2 _ _ e2 rfl rfl, List.append_assoc]
    · rename_i hi
      rw [dif_neg hi]
      cases h
      exact ⟨[], rfl, fun o ho => absurd ho (by simp), by simp [told, linesOf]⟩

theorem readT_ok (s : CIface) (buf : Vector FrameT FramesLen) (ans : RawAns) (r : RawReadOut) (h : s.read buf ans = .ok r) :
    ∃ out, s.readT buf ans = .ok (r, out) ∧ (∀ o ∈ out, ∃ t, Line o t) ∧ told out.flatten = (r.out_frames.toList.take r.read).map idAndTime := by
  have h0 := h
  unfold CIface.read at h
  unfold CIface.readT
  rw [h0]
  split at h
  · rename_i hr
    rw [if_pos hr]
    cases h
    exact ⟨[], rfl, fun o ho => absurd ho (by simp), by simp [told, linesOf]⟩
  · rename_i hr
    rw [if_neg hr]
    simp only [] at h ⊢
    obtain ⟨st, h1, h⟩ := bindOk h
    obtain ⟨out, e1, e2, e3⟩ := readLoopRawT_ok _ _ _ _ _ _ h1
    rw [e1]
    refine ⟨out, rfl, e2, ?_⟩
    cases h
    rw [← List.nil_append (told out.flatten), ← show deliveredSoFar { stats := s.iface.stats, out_frames := buf, out_frames_read := 0 } = [] from by
      simp [deliveredSoFar], ← e3]
    rfl

theorem readT_ub (s : CIface) (buf : Vector FrameT FramesLen) (ans : RawAns) (p : RawReadOut × List (List Char)) (h : s.readT buf ans = .ok p) :
    s.read buf ans = .ok p.1 := by
  unfold CIface.readT at h
  split at h
  · obtain ⟨r, h1, h⟩ := bindOk h
    cases h
    exact h1
  · obtain ⟨q, -, h⟩ := bindOk h
    obtain ⟨r, h1, h⟩ := bindOk h
    cases h
    exact h1

end Uavcan.SocketCan
