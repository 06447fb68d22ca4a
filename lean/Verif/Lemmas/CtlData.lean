import Verif.Spec.CtlData
import Verif.Lemmas.SocketCtl
import Verif.Lemmas.SocketCan

/-!
# Lemmas about control data
-/

namespace Uavcan.Spec
open SocketCan Can Time

/-- The control message as `Model/SocketCan.lean` has it. -/
def CtlMsg.abs (m : CtlMsg) : Cmsg :=
  if m.IsStamp ∧ 16 ≤ m.data.length then
    .timestamp (BitVec.ofNat 64 (leNat (m.data.take 8))) (BitVec.ofNat 64 (leNat ((m.data.drop 8).take 8)))
  else if m.IsDrops ∧ 4 ≤ m.data.length then .rxqOvfl (BitVec.ofNat 32 (leNat (m.data.take 4)))
  else .other

theorem CtlMsg.bytes_eq (m : CtlMsg) : m.bytes = cmsgBytes (16 + m.data.length) m.level m.type m.data := rfl

theorem CtlMsg.bytes_length (m : CtlMsg) : m.bytes.length = 16 + m.data.length := by
  rw [m.bytes_eq, cmsgBytes_length]

theorem nextHdr_none (c off len : Nat) (h : c < off + 16 + cmsgAlign len) : nextHdr c off len = none := by
  unfold nextHdr
  split
  · rfl
  · exact if_pos h

theorem nextHdr_some (c off len : Nat) (h1 : 16 ≤ len) (h : off + 16 + cmsgAlign len ≤ c) :
    nextHdr c off len = some (off + cmsgAlign len) := by
  unfold nextHdr
  rw [if_neg (show ¬ len < CmsghdrSize from Nat.not_lt.2 h1)]
  exact if_neg (Nat.not_lt.2 h)

theorem leNat_lt (l : List Byte) : leNat l < 256 ^ l.length := by
  induction l with
  | nil => simp [leNat]
  | cons b l ih =>
    have := b.isLt
    rw [leNat, List.length_cons, Nat.pow_succ]
    omega

theorem ctlData_short {bs : List Byte} {ms : List CtlMsg} (h : CtlData bs ms) (hl : bs.length < 16) : ms = [] := by
  cases h with
  | none => rfl
  | more m pad rest ms => rw [List.length_append, List.length_append, m.bytes_length] at hl; omega
  | last m pad => rw [List.length_append, m.bytes_length] at hl; omega

theorem ctlData_long {bs : List Byte} {ms : List CtlMsg} (h : CtlData bs ms) (hl : 16 ≤ bs.length) : ms ≠ [] := by
  cases h with
  | none _ h => omega
  | more m pad rest ms => simp
  | last m pad => simp

/-- Loads from the data at `off`. -/
theorem load_at (h : Hdr) (D : List Byte) (off k n : Nat) (hc : h.controllen ≤ 32) (ho : off + k + n ≤ h.controllen)
    (hD : h.data.drop off = D) : h.load (off + k) n = .ok (leNat ((D.drop k).take n)) := by
  rw [load_take h h.data (off + k) n h.controllen rfl ho (by omega), ← hD, List.drop_drop]

theorem take_front {α} (a b : List α) (k n : Nat) (h : k + n ≤ a.length) :
    ((a ++ b).drop k).take n = (a.drop k).take n := by
  rw [List.drop_append, List.take_append_of_le_length (by rw [List.length_drop]; omega)]

/-- A message at `off`: what the body of the loop makes of it. -/
theorem ctlOne_at (h : Hdr) (off : Nat) (m : CtlMsg) (tail : List Byte) (t : TimePoint) (st : Statistics)
    (hc : h.controllen ≤ 32) (hm : m.Ok) (hw : m.Whole) (hD : h.data.drop off = m.bytes ++ tail) :
    ctlOne h off t st =
      .ok ((readCmsgs t st [m.abs]).1, (readCmsgs t st [m.abs]).2, 16 + m.data.length) := by
  have hdl : h.data.length = h.controllen := by
    unfold Hdr.data; rw [List.length_take, ctl_length]; omega
  have hlen : h.controllen - off = 16 + m.data.length + tail.length := by
    have := congrArg List.length hD
    rw [List.length_drop, List.length_append, m.bytes_length, hdl] at this
    omega
  have hsz : 16 + m.data.length < 256 ^ 8 := Nat.lt_of_le_of_lt (by omega : _ ≤ 32) (by decide)
  have h0 : h.load off 8 = .ok (16 + m.data.length) := by
    have := load_at h _ off 0 8 hc (by omega) hD
    rw [Nat.add_zero] at this
    rw [this, take_front _ _ _ _ (by rw [m.bytes_length]; omega), List.drop_zero, m.bytes_eq, cmsgBytes_len,
      leNat_leBytes_lt hsz]
  have h1 : h.load (off + 8) 4 = .ok m.level := by
    rw [load_at h _ off 8 4 hc (by omega) hD, take_front _ _ _ _ (by rw [m.bytes_length]; omega), m.bytes_eq,
      cmsgBytes_level, leNat_leBytes_lt (by have := hm.1; omega)]
  have h2 : h.load (off + 12) 4 = .ok m.type := by
    rw [load_at h _ off 12 4 hc (by omega) hD, take_front _ _ _ _ (by rw [m.bytes_length]; omega), m.bytes_eq,
      cmsgBytes_type, leNat_leBytes_lt (by have := hm.2; omega)]
  have h3 : ∀ k n, k + n ≤ m.data.length → h.load (off + 16 + k) n = .ok (leNat ((m.data.drop k).take n)) := by
    intro k n hk
    rw [Nat.add_assoc, load_at h _ off (16 + k) n hc (by omega) hD,
      take_front _ _ _ _ (by rw [m.bytes_length]; omega), m.bytes_eq, cmsgBytes_data]
  unfold ctlOne
  rw [h0, h1, h2]
  simp only [Outcome.ok_bind]
  by_cases hl : m.level = SOL_SOCKET
  · rw [if_pos hl]
    by_cases ht : m.type = SO_TIMESTAMP
    · have h16 := hw.1 ⟨hl, ht⟩
      have e0 := h3 0 8 (by omega)
      have e8 := h3 8 8 (by omega)
      rw [Nat.add_zero, List.drop_zero] at e0
      rw [if_pos ⟨ht, by show 16 ≤ _; omega⟩]
      simp only [CmsghdrSize]
      rw [e0, e8]
      have ha : m.abs = .timestamp (BitVec.ofNat 64 (leNat (m.data.take 8)))
          (BitVec.ofNat 64 (leNat ((m.data.drop 8).take 8))) := by
        unfold CtlMsg.abs; rw [if_pos ⟨⟨hl, ht⟩, h16⟩]
      rw [ha]
      simp only [Outcome.ok_bind]
      rfl
    · rw [if_neg (fun h => ht h.1)]
      by_cases hd : m.type = SO_RXQ_OVFL
      · have h4 := hw.2 ⟨hl, hd⟩
        have e0 := h3 0 4 (by omega)
        rw [Nat.add_zero, List.drop_zero] at e0
        rw [if_pos ⟨hd, by omega⟩]
        simp only [CmsghdrSize]
        rw [e0]
        have ha : m.abs = .rxqOvfl (BitVec.ofNat 32 (leNat (m.data.take 4))) := by
          unfold CtlMsg.abs; rw [if_neg (fun h => ht h.1.2), if_pos ⟨⟨hl, hd⟩, h4⟩]
        have hlt : leNat (m.data.take 4) < 2 ^ 32 := by
          have := leNat_lt (m.data.take 4)
          rw [List.length_take, Nat.min_eq_left h4] at this
          exact this
        rw [ha, readCmsgs, readCmsgs]
        simp only [Outcome.ok_bind]
        congr 4
        apply BitVec.eq_of_toNat_eq
        simp only [BitVec.toNat_add, BitVec.toNat_ofNat, BitVec.toNat_setWidth, Nat.mod_eq_of_lt hlt]
      · rw [if_neg (fun h => hd h.1)]
        have ha : m.abs = .other := by
          unfold CtlMsg.abs; rw [if_neg (fun h => ht h.1.2), if_neg (fun h => hd h.1.2)]
        rw [ha]; rfl
  · rw [if_neg hl]
    have ha : m.abs = .other := by
      unfold CtlMsg.abs; rw [if_neg (fun h => hl h.1.1), if_neg (fun h => hl h.1.1)]
    rw [ha]; rfl

theorem readCmsgs_cons (t : TimePoint) (st : Statistics) (c : Cmsg) (cs : List Cmsg) :
    readCmsgs t st (c :: cs) = readCmsgs (readCmsgs t st [c]).1 (readCmsgs t st [c]).2 cs := by
  cases c <;> rfl

/-- The loop reads the messages that are there. -/
theorem ctlLoop_data {D : List Byte} {ms : List CtlMsg} (hd : CtlData D ms) (h : Hdr) (off : Nat) (t : TimePoint)
    (st : Statistics) (hc : h.controllen ≤ 32) (hD : h.data.drop off = D) (ho : off ≤ h.controllen) (hne : ms ≠ [])
    (hw : ∀ m ∈ ms, m.Whole) :
    ctlLoop h off t st = .ok (readCmsgs t st (ms.map CtlMsg.abs)) := by
  have hdl : h.data.length = h.controllen := by
    unfold Hdr.data; rw [List.length_take, ctl_length]; omega
  induction hd generalizing off t st with
  | none => exact absurd rfl hne
  | last m pad hm hp =>
    have hlen := congrArg List.length hD
    rw [List.length_drop, List.length_append, m.bytes_length, hdl] at hlen
    have h1 := ctlOne_at h off m pad t st hc hm (hw m (by simp)) hD
    have hn : nextHdr h.controllen off (16 + m.data.length) = none := by
      apply nextHdr_none
      unfold cmsgAlign
      omega
    rw [ctlLoop.eq_def, h1]
    simp only []
    split
    · rfl
    · rename_i h5; rw [hn] at h5; cases h5
  | more m pad rest ms hm hp8 hp hr ih =>
    have hlen := congrArg List.length hD
    rw [List.length_drop, List.length_append, List.length_append, m.bytes_length, hdl] at hlen
    have h1 := ctlOne_at h off m (pad ++ rest) t st hc hm (hw m (by simp)) (by rw [hD, List.append_assoc])
    have ha : cmsgAlign (16 + m.data.length) = 16 + m.data.length + pad.length := by
      unfold cmsgAlign; omega
    rw [ctlLoop.eq_def, h1]
    simp only []
    rw [List.map_cons, readCmsgs_cons t st m.abs (ms.map CtlMsg.abs)]
    by_cases h16 : rest.length < 16
    · have hms := ctlData_short hr h16
      have hn : nextHdr h.controllen off (16 + m.data.length) = none := by
        apply nextHdr_none
        omega
      split
      · rw [hms]; rfl
      · rename_i h5; rw [hn] at h5; cases h5
    · have hn : nextHdr h.controllen off (16 + m.data.length) = some (off + (16 + m.data.length + pad.length)) := by
        rw [nextHdr_some _ _ _ (by omega) (by omega), ha]
      split
      · rename_i h5; rw [hn] at h5; cases h5
      · rename_i off' h5
        rw [hn] at h5
        cases h5
        apply ih
        · rw [← List.drop_drop, hD, List.drop_left' (by rw [List.length_append, m.bytes_length])]
        · omega
        · exact ctlData_long hr (by omega)
        · intro x hx; exact hw x (by simp [hx])

theorem readCtl_data {ms : List CtlMsg} (h : Hdr) (st : Statistics) (hc : h.controllen ≤ 32) (hd : CtlData h.data ms)
    (hw : ∀ m ∈ ms, m.Whole) : readCtl h st = .ok (readCmsgs TimePoint.default st (ms.map CtlMsg.abs)) := by
  have hdl : h.data.length = h.controllen := by
    unfold Hdr.data; rw [List.length_take, ctl_length]; omega
  unfold readCtl
  by_cases h16 : 16 ≤ h.controllen
  · rw [if_pos (show CmsghdrSize ≤ h.controllen from h16)]
    exact ctlLoop_data hd h 0 _ st hc (by rw [List.drop_zero]) (by omega) (ctlData_long hd (by omega)) hw
  · rw [if_neg (show ¬ CmsghdrSize ≤ h.controllen from h16), ctlData_short hd (by omega)]; rfl

/-- `CMSG_NXTHDR` of the first header finds a second one only if the first is empty and the buffer is full. -/
theorem nextHdr_first (c len off' : Nat) (hc : c ≤ 32) (h : nextHdr c 0 len = some off') : c = 32 ∧ len = 16 ∧ off' = 16 := by
  unfold nextHdr at h
  split at h
  · cases h
  · split at h
    · cases h
    · cases h
      simp only [CmsghdrSize, cmsgAlign] at *
      omega

/-- The first header is read without leaving the buffer. -/
theorem ctlOne_first (h : Hdr) (t : TimePoint) (st : Statistics) :
    ∃ t' st', ctlOne h 0 t st = .ok (t', st', leNat (h.control.toList.take 8)) := by
  have hl : ∀ off n, off + n ≤ 32 → h.load off n = .ok (leNat ((h.control.toList.drop off).take n)) :=
    fun off n hn => load_take h _ off n 32 (List.take_of_length_le (by rw [ctl_length]; exact Nat.le_refl _)) hn hn
  unfold ctlOne
  simp only [CmsghdrSize, Nat.zero_add]
  rw [hl 0 8 (by omega), hl 8 4 (by omega), hl 12 4 (by omega), hl 16 8 (by omega), hl (16 + 8) 8 (by omega), hl 16 4 (by omega)]
  simp only [Outcome.ok_bind, List.drop_zero]
  split
  · split
    · exact ⟨_, _, rfl⟩
    · split
      · exact ⟨_, _, rfl⟩
      · exact ⟨_, _, rfl⟩
  · exact ⟨_, _, rfl⟩

/-- The second header of a full buffer is at its end: its data would be outside. -/
theorem ctlOne_second (h : Hdr) (t : TimePoint) (st : Statistics) (hc : h.controllen = 32) :
    ctlOne h 16 t st =
      if leNat ((h.control.toList.drop 24).take 4) = 1 ∧ (leNat ((h.control.toList.drop 28).take 4) = 29 ∨
        (leNat ((h.control.toList.drop 28).take 4) = 40 ∧ 4 ≤ leNat ((h.control.toList.drop 16).take 8)))
      then .ub .outOfBounds else .ok (t, st, leNat ((h.control.toList.drop 16).take 8)) := by
  have hl : ∀ off n, off + n ≤ 32 → h.load off n = .ok (leNat ((h.control.toList.drop off).take n)) :=
    fun off n hn => load_take h _ off n 32 (List.take_of_length_le (by rw [ctl_length]; exact Nat.le_refl _)) hn hn
  have hb : ∀ n, 0 < n → h.load 32 n = .ub .outOfBounds := by
    intro n hn
    unfold Hdr.load
    rw [if_neg (by simp only [ControlSize, CmsghdrSize, TimevalSize]; omega)]
  have e16 := hl 16 8 (by omega)
  have e24 := hl 24 4 (by omega)
  have e28 := hl 28 4 (by omega)
  have e32 := hb 8 (by omega)
  have e32' := hb 4 (by omega)
  unfold ctlOne
  have hts : TimevalSize ≤ h.controllen := by rw [hc]; decide
  simp only [CmsghdrSize, Nat.reduceAdd, e16, e24, e28, e32, e32', Outcome.ok_bind, hts, and_true]
  generalize leNat ((h.control.toList.drop 24).take 4) = l
  generalize leNat ((h.control.toList.drop 28).take 4) = y
  generalize leNat ((h.control.toList.drop 16).take 8) = n
  by_cases h1 : l = SOL_SOCKET
  · rw [if_pos h1]
    by_cases h2 : y = SO_TIMESTAMP
    · rw [if_pos h2, if_pos ⟨h1, .inl h2⟩]; rfl
    · rw [if_neg h2]
      by_cases h3 : y = SO_RXQ_OVFL ∧ 4 ≤ n
      · rw [if_pos h3, if_pos ⟨h1, .inr h3⟩]; rfl
      · rw [if_neg h3, if_neg (fun hh => hh.2.elim h2 h3)]; rfl
  · rw [if_neg h1, if_neg (fun hh => h1 hh.1)]; rfl

/-- Reading leaves the buffer for exactly those control data. -/
theorem readCtl_ub (h : Hdr) (st : Statistics) (hc : h.controllen ≤ 32) :
    (∃ u, readCtl h st = .ub u) ↔ EmptyThenHeader h.data := by
  have hdl : h.data.length = h.controllen := by
    unfold Hdr.data; rw [List.length_take, ctl_length]; omega
  unfold readCtl EmptyThenHeader
  rw [hdl]
  by_cases h16 : CmsghdrSize ≤ h.controllen
  · rw [if_pos h16]
    obtain ⟨t', st', h1⟩ := ctlOne_first h TimePoint.default st
    rw [ctlLoop.eq_def, h1]
    simp only []
    split
    · rename_i hn
      constructor
      · rintro ⟨u, hu⟩; cases hu
      · rintro ⟨c1, c2, -⟩
        exfalso
        have hd : h.data = h.control.toList := by
          unfold Hdr.data; rw [c1, List.take_of_length_le (by rw [ctl_length]; exact Nat.le_refl _)]
        rw [hd] at c2
        rw [c1, c2] at hn
        exact absurd hn (by decide)
    · rename_i off' hn
      obtain ⟨c1, c2, c3⟩ := nextHdr_first _ _ _ hc hn
      have hd : h.data = h.control.toList := by
        unfold Hdr.data; rw [c1, List.take_of_length_le (by rw [ctl_length]; exact Nat.le_refl _)]
      rw [c3, ctlLoop.eq_def, ctlOne_second h _ _ c1, hd, c2]
      by_cases hx : leNat ((h.control.toList.drop 24).take 4) = 1 ∧ (leNat ((h.control.toList.drop 28).take 4) = 29 ∨
        (leNat ((h.control.toList.drop 28).take 4) = 40 ∧ 4 ≤ leNat ((h.control.toList.drop 16).take 8)))
      · rw [if_pos hx]
        exact ⟨fun _ => ⟨c1, rfl, hx⟩, fun _ => ⟨_, rfl⟩⟩
      · rw [if_neg hx]
        simp only []
        constructor
        · split
          · rintro ⟨u, hu⟩; cases hu
          · rename_i off'' h5
            exfalso
            rw [c1] at h5
            unfold nextHdr at h5
            split at h5
            · cases h5
            · split at h5
              · cases h5
              · rename_i a b
                simp only [CmsghdrSize, cmsgAlign] at a b
                omega
        · rintro ⟨-, -, h⟩
          exact absurd h hx
  · rw [if_neg h16]
    constructor
    · rintro ⟨u, hu⟩; cases hu
    · rintro ⟨c1, -⟩
      exact absurd (by rw [c1]; decide) h16

/-- A time stamp at the front of a buffer that is not full: the bytes behind the header are taken for the time, whether
they are part of the control data or not. -/
theorem readCtl_stale (h : Hdr) (st : Statistics) (h16 : 16 ≤ h.controllen) (hc : h.controllen < 32)
    (hlevel : leNat ((h.control.toList.drop 8).take 4) = 1) (htype : leNat ((h.control.toList.drop 12).take 4) = 29) :
    readCtl h st = .ok (readCmsgs TimePoint.default st
      [.timestamp (BitVec.ofNat 64 (leNat ((h.control.toList.drop 16).take 8)))
        (BitVec.ofNat 64 (leNat ((h.control.toList.drop 24).take 8)))]) := by
  have hl : ∀ off n, off + n ≤ 32 → h.load off n = .ok (leNat ((h.control.toList.drop off).take n)) :=
    fun off n hn => load_take h _ off n 32 (List.take_of_length_le (by rw [ctl_length]; exact Nat.le_refl _)) hn hn
  have h1 : ctlOne h 0 TimePoint.default st =
      .ok (TimePoint.fromMicrosecond ((BitVec.ofNat 64 (leNat ((h.control.toList.drop 16).take 8)) * 1000000#64 +
        BitVec.ofNat 64 (leNat ((h.control.toList.drop 24).take 8))).toNat : Int), st, leNat (h.control.toList.take 8)) := by
    unfold ctlOne
    simp only [CmsghdrSize, Nat.zero_add, Nat.reduceAdd]
    rw [hl 0 8 (by omega), hl 8 4 (by omega), hl 12 4 (by omega), hlevel, htype, hl 16 8 (by omega), hl 24 8 (by omega)]
    simp only [Outcome.ok_bind, List.drop_zero]
    rw [if_pos (show 1 = SOL_SOCKET from rfl), if_pos ⟨show 29 = SO_TIMESTAMP from rfl, show TimevalSize ≤ h.controllen from h16⟩]
    rfl
  unfold readCtl
  rw [if_pos (show CmsghdrSize ≤ h.controllen from h16), ctlLoop.eq_def, h1]
  simp only []
  split
  · rfl
  · rename_i h5
    have := (nextHdr_first _ _ _ (by omega) h5).1
    omega

/-! ## Whole calls -/

/-- Whatever the buffer holds, one header either leads out of the buffer or acts like some control message. -/
theorem ctlOne_abs (h : Hdr) (off : Nat) :
    (∃ c len, ∀ t st, ctlOne h off t st = .ok ((readCmsgs t st [c]).1, (readCmsgs t st [c]).2, len)) ∨
      ∃ u, ∀ t st, ctlOne h off t st = .ub u := by
  unfold ctlOne
  cases h.load off 8 with
  | ub u => exact .inr ⟨u, fun _ _ => rfl⟩
  | ok len =>
    cases h.load (off + 8) 4 with
    | ub u => exact .inr ⟨u, fun _ _ => rfl⟩
    | ok level =>
      cases h.load (off + 12) 4 with
      | ub u => exact .inr ⟨u, fun _ _ => rfl⟩
      | ok type =>
        simp only [Outcome.ok_bind]
        by_cases h1 : level = SOL_SOCKET
        · simp only [h1, if_true]
          by_cases h2 : type = SO_TIMESTAMP ∧ TimevalSize ≤ h.controllen
          · simp only [h2, and_self, if_true]
            cases h.load (off + CmsghdrSize) 8 with
            | ub u => exact .inr ⟨u, fun _ _ => rfl⟩
            | ok sec =>
              cases h.load (off + CmsghdrSize + 8) 8 with
              | ub u => exact .inr ⟨u, fun _ _ => rfl⟩
              | ok usec => exact .inl ⟨.timestamp (BitVec.ofNat 64 sec) (BitVec.ofNat 64 usec), len, fun _ _ => rfl⟩
          · simp only [if_neg h2]
            by_cases h3 : type = SO_RXQ_OVFL ∧ 4 ≤ len
            · simp only [if_pos h3]
              have hlt : ∀ d, h.load (off + CmsghdrSize) 4 = .ok d → d < 2 ^ 32 := by
                intro d hd
                unfold Hdr.load at hd
                split at hd
                · cases hd
                  refine Nat.lt_of_lt_of_le (leNat_lt _) ?_
                  rw [show (2 : Nat) ^ 32 = 256 ^ 4 by decide]
                  exact Nat.pow_le_pow_right (by decide) (by rw [List.length_take]; omega)
                · cases hd
              cases hl : h.load (off + CmsghdrSize) 4 with
              | ub u => exact .inr ⟨u, fun _ _ => rfl⟩
              | ok d =>
                refine .inl ⟨.rxqOvfl (BitVec.ofNat 32 d), len, fun t st => ?_⟩
                simp only [Outcome.ok_bind, readCmsgs]
                show Outcome.ok _ = _
                congr 4
                apply BitVec.eq_of_toNat_eq
                simp only [BitVec.toNat_add, BitVec.toNat_ofNat, BitVec.toNat_setWidth, Nat.mod_eq_of_lt (hlt d hl)]
            · simp only [if_neg h3]
              exact .inl ⟨.other, len, fun _ _ => rfl⟩
        · simp only [if_neg h1]
          exact .inl ⟨.other, len, fun _ _ => rfl⟩

theorem ctlLoop_abs (h : Hdr) (off : Nat) :
    (∃ cs, ∀ t st, ctlLoop h off t st = .ok (readCmsgs t st cs)) ∨ ∃ u, ∀ t st, ctlLoop h off t st = .ub u := by
  rcases ctlOne_abs h off with ⟨c, len, h1⟩ | ⟨u, h1⟩
  · cases hn : nextHdr h.controllen off len with
    | none =>
      refine .inl ⟨[c], fun t st => ?_⟩
      rw [ctlLoop.eq_def, h1]
      simp only []
      split
      · rfl
      · rename_i h5; rw [hn] at h5; cases h5
    | some off' =>
      have hlt := nextHdr_lt hn
      have step : ∀ t st, ctlLoop h off t st = ctlLoop h off' (readCmsgs t st [c]).1 (readCmsgs t st [c]).2 := by
        intro t st
        rw [ctlLoop.eq_def, h1]
        simp only []
        split
        · rename_i h5; rw [hn] at h5; cases h5
        · rename_i o h5; rw [hn] at h5; cases h5; rfl
      rcases ctlLoop_abs h off' with ⟨cs, h2⟩ | ⟨u, h2⟩
      · refine .inl ⟨c :: cs, fun t st => ?_⟩
        rw [step, h2, readCmsgs_cons t st c cs]
      · exact .inr ⟨u, fun t st => by rw [step, h2]⟩
  · refine .inr ⟨u, fun t st => ?_⟩
    rw [ctlLoop.eq_def, h1]
  termination_by h.controllen - off

theorem readCtl_abs (h : Hdr) :
    (∃ cs, ∀ st, readCtl h st = .ok (readCmsgs TimePoint.default st cs)) ∨ ∃ u, ∀ st, readCtl h st = .ub u := by
  unfold readCtl
  split
  · rcases ctlLoop_abs h 0 with ⟨cs, h1⟩ | ⟨u, h1⟩
    · exact .inl ⟨cs, fun st => h1 _ _⟩
    · exact .inr ⟨u, fun st => h1 _ _⟩
  · exact .inl ⟨[], fun st => rfl⟩

/-- A whole call, if the control data of every message acts like some control messages. -/
theorem read_abs (s : CIface) (out : Vector FrameT FramesLen) (e : Int) (raw : List RawMsg) (ms : List RxMsg)
    (h0 : 0 < raw.length) (h4 : raw.length ≤ 4) (hl : raw.length = ms.length)
    (hm : ∀ k (h1 : k < raw.length) (h2 : k < ms.length), raw[k].classic = ms[k].classic ∧ raw[k].frame = ms[k].frame ∧
      ∀ st, readCtl raw[k].hdr st = .ok (readCmsgs TimePoint.default st ms[k].cmsgs)) :
    s.read out { res := raw.length, errno := e, msgs := raw } = (do
      let r ← s.iface.read out { res := ms.length, errno := e, msgs := ms }
      return { result := r.result, out_frames := r.out_frames, read := r.read,
               iface := { iface := r.iface, hdrs := storeHdrs raw 0 s.hdrs } }) := by
  unfold CIface.read Iface.read
  simp only []
  rw [if_neg (by omega), if_neg (by omega)]
  have e1 : raw.take ((raw.length : Int).toNat) = raw := List.take_of_length_le (by omega)
  have e2 : ms.take ((ms.length : Int).toNat) = ms := List.take_of_length_le (by omega)
  rw [e1, e2]
  rw [storeMsgs_cmsgs raw ms 0 s.iface.bufs hl (fun k h1 h2 => ⟨(hm k h1 h2).1, (hm k h1 h2).2.1⟩)]
  rw [hl, readLoopRaw_eq]
  · cases readLoop (storeMsgs ms 0 s.iface.bufs) ms 0
      { stats := s.iface.stats, out_frames := out, out_frames_read := 0 } <;> rfl
  · intro k h1 h2 st
    rw [storeHdrs_get, dif_pos (by omega)]
    have := (hm k (by omega) h1).2.2 st
    simp only [Nat.zero_add, Nat.sub_zero]
    exact this

theorem readOneRaw_ub (b : CanfdFrame) (h : Hdr) (s : ReadState) (hu : ∃ u, ∀ st, readCtl h st = .ub u) :
    ∃ u, readOneRaw b h s = .ub u := by
  obtain ⟨u, hu⟩ := hu
  unfold readOneRaw
  split
  · rw [hu]; exact ⟨u, rfl⟩
  · exact ⟨_, rfl⟩

/-- One message whose control data lead out of the buffer is enough. -/
theorem readLoopRaw_ub (bufs : Vector CanfdFrame FramesLen) (hs : Vector Hdr FramesLen) (n i : Nat) (s : ReadState) (k : Nat)
    (hk : k < n) (h4 : i + n ≤ 4) (hu : ∃ u, ∀ st, readCtl (hs[i + k]'(by show _ < 4; omega)) st = .ub u) :
    ∃ u, readLoopRaw bufs hs n i s = .ub u := by
  induction n generalizing i s k with
  | zero => omega
  | succ n ih =>
    unfold readLoopRaw
    have hi : i < FramesLen := by show i < 4; omega
    rw [dif_pos hi]
    cases hr : readOneRaw bufs[i] hs[i] s with
    | ub u => exact ⟨u, rfl⟩
    | ok s' =>
      simp only [Outcome.ok_bind]
      cases k with
      | zero =>
        obtain ⟨u, h1⟩ := readOneRaw_ub bufs[i] hs[i] s hu
        rw [hr] at h1; cases h1
      | succ k =>
        refine ih (i + 1) s' k (by omega) (by omega) ?_
        have e : i + 1 + k = i + (k + 1) := by omega
        simp only [e]
        exact hu

theorem read_ub (s : CIface) (out : Vector FrameT FramesLen) (e : Int) (raw : List RawMsg)
    (h4 : raw.length ≤ 4) (k : Nat) (hk : k < raw.length) (hu : ∃ u, ∀ st, readCtl raw[k].hdr st = .ub u) :
    ∃ u, s.read out { res := raw.length, errno := e, msgs := raw } = .ub u := by
  unfold CIface.read
  simp only []
  rw [if_neg (by omega)]
  have e1 : raw.take ((raw.length : Int).toNat) = raw := List.take_of_length_le (by omega)
  rw [e1]
  obtain ⟨u, h1⟩ := readLoopRaw_ub (storeMsgs (raw.map fun m => ⟨m.classic, m.frame, []⟩) 0 s.iface.bufs)
    (storeHdrs raw 0 s.hdrs) raw.length 0
    { stats := s.iface.stats, out_frames := out, out_frames_read := 0 } k hk (by omega) (by
      rw [storeHdrs_get, dif_pos (by omega)]
      simpa using hu)
  rw [h1]
  exact ⟨u, rfl⟩

theorem toMicrosecond_abs (cs : List CtlMsg) :
    (lastStamp TimePoint.default (cs.map CtlMsg.abs)).toMicrosecond = ((ctlMicros cs % 2 ^ 64 : Nat) : Int) := by
  have gen : ∀ (cs : List CtlMsg) (t : TimePoint) (n : Nat), t.toMicrosecond = ((n % 2 ^ 64 : Nat) : Int) →
      (lastStamp t (cs.map CtlMsg.abs)).toMicrosecond = (((cs.filterMap CtlMsg.micros?).getLastD n % 2 ^ 64 : Nat) : Int) := by
    intro cs
    induction cs with
    | nil => intro t n h; exact h
    | cons c cs ih =>
      intro t n h
      rw [List.map_cons, lastStamp, List.foldl_cons, ← lastStamp, List.filterMap_cons]
      by_cases hs : c.IsStamp ∧ 16 ≤ c.data.length
      · have ha : c.abs = .timestamp (BitVec.ofNat 64 (leNat (c.data.take 8)))
            (BitVec.ofNat 64 (leNat ((c.data.drop 8).take 8))) := by unfold CtlMsg.abs; rw [if_pos hs]
        have hm : c.micros? = some (leNat (c.data.take 8) * 1000000 + leNat ((c.data.drop 8).take 8)) := by
          unfold CtlMsg.micros?; rw [if_pos hs]
        rw [ha, hm]
        simp only [List.getLastD_cons]
        apply ih
        show ((_ : Nat) : Int) = _
        congr 1
        simp only [BitVec.toNat_add, BitVec.toNat_mul, BitVec.toNat_ofNat]
        omega
      · have hm : c.micros? = none := by unfold CtlMsg.micros?; rw [if_neg hs]
        rw [hm]
        have ha : c.abs = .other ∨ ∃ d, c.abs = .rxqOvfl d := by
          unfold CtlMsg.abs
          rw [if_neg hs]
          split
          · exact .inr ⟨_, rfl⟩
          · exact .inl rfl
        rcases ha with ha | ⟨d, ha⟩ <;> rw [ha] <;> exact ih t n h
  exact gen cs TimePoint.default 0 rfl

theorem dropsOf_abs (cs : List CtlMsg) :
    (dropsOf (cs.map CtlMsg.abs)).map BitVec.toNat = cs.filterMap CtlMsg.drops? := by
  induction cs with
  | nil => rfl
  | cons c cs ih =>
    unfold dropsOf at *
    rw [List.map_cons, List.filterMap_cons, List.filterMap_cons]
    by_cases hs : c.IsStamp ∧ 16 ≤ c.data.length
    · have hd : ¬ c.IsDrops := fun h => by have := hs.1.2; have := h.2; omega
      have ha : c.abs = .timestamp (BitVec.ofNat 64 (leNat (c.data.take 8)))
          (BitVec.ofNat 64 (leNat ((c.data.drop 8).take 8))) := by unfold CtlMsg.abs; rw [if_pos hs]
      have hm : c.drops? = none := by unfold CtlMsg.drops?; rw [if_neg (fun h => hd h.1)]
      rw [ha, hm]; exact ih
    · by_cases hd : c.IsDrops ∧ 4 ≤ c.data.length
      · have ha : c.abs = .rxqOvfl (BitVec.ofNat 32 (leNat (c.data.take 4))) := by
          unfold CtlMsg.abs; rw [if_neg hs, if_pos hd]
        have hm : c.drops? = some (leNat (c.data.take 4)) := by unfold CtlMsg.drops?; rw [if_pos hd]
        have hlt : leNat (c.data.take 4) < 2 ^ 32 := by
          have := leNat_lt (c.data.take 4)
          rw [List.length_take, Nat.min_eq_left hd.2] at this
          exact this
        rw [ha, hm]
        simp only [List.map_cons, BitVec.toNat_ofNat, Nat.mod_eq_of_lt hlt, ih]
      · have ha : c.abs = .other := by unfold CtlMsg.abs; rw [if_neg hs, if_neg hd]
        have hm : c.drops? = none := by unfold CtlMsg.drops?; rw [if_neg hd]
        rw [ha, hm]; exact ih

theorem sum64_toNat (l : List (BitVec 32)) : (sum64 l).toNat = (l.map BitVec.toNat).sum % 2 ^ 64 := by
  induction l with
  | nil => rfl
  | cons x l ih =>
    have h : sum64 (x :: l) = x.setWidth 64 + sum64 l := rfl
    rw [h, BitVec.toNat_add, ih, List.map_cons, List.sum_cons, BitVec.toNat_setWidth]
    omega

end Uavcan.Spec
