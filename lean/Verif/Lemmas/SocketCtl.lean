import Verif.Spec.SocketCtl

/-!
# Lemmas about the control buffers
-/

namespace Uavcan.Spec
open SocketCan Can Time

theorem leBytes_length (n x : Nat) : (leBytes n x).length = n := by
  induction n generalizing x with
  | zero => rfl
  | succ n ih => simp [leBytes, ih]

theorem leNat_leBytes (n x : Nat) : leNat (leBytes n x) = x % 256 ^ n := by
  induction n generalizing x with
  | zero => simp [leBytes, leNat, Nat.mod_one]
  | succ n ih =>
    have h : x % 256 ^ (n + 1) = x % 256 + 256 * (x / 256 % 256 ^ n) := by
      rw [Nat.pow_succ, Nat.mul_comm, Nat.mod_mul]
    rw [leBytes, leNat, ih, BitVec.toNat_ofNat, h]

theorem leNat_leBytes_lt {n x : Nat} (h : x < 256 ^ n) : leNat (leBytes n x) = x := by
  rw [leNat_leBytes, Nat.mod_eq_of_lt h]

theorem ctl_length (v : Vector Byte ControlSize) : v.toList.length = 32 := Vector.length_toList

/-- Bytes stored at the front of a buffer are the front of the buffer. -/
theorem storeAt_take (v : Vector Byte ControlSize) (bs : List Byte) (hb : bs.length ≤ 32) :
    (storeAt v 0 bs).toList.take bs.length = bs := by
  apply List.ext_getElem
  · rw [List.length_take, ctl_length]; omega
  · intro k h1 h2
    simp [storeAt, h2]

theorem load_take (h : Hdr) (bs : List Byte) (off n m : Nat) (hh : h.control.toList.take m = bs) (hm : off + n ≤ m)
    (hb : off + n ≤ 32) : h.load off n = .ok (leNat ((bs.drop off).take n)) := by
  unfold Hdr.load
  rw [if_pos (by simpa [ControlSize, CmsghdrSize, TimevalSize] using hb)]
  congr 2
  rw [← hh, List.drop_take, List.take_take]
  congr 1
  omega

/-- The bytes of one control message. -/
def cmsgBytes (cmlen level type : Nat) (data : List Byte) : List Byte :=
  leBytes 8 cmlen ++ leBytes 4 level ++ leBytes 4 type ++ data

theorem cmsgBytes_length (c l t : Nat) (d : List Byte) : (cmsgBytes c l t d).length = 16 + d.length := by
  simp [cmsgBytes, leBytes_length]; omega

theorem cmsgBytes_len (c l t : Nat) (d : List Byte) : (cmsgBytes c l t d).take 8 = leBytes 8 c := by
  unfold cmsgBytes
  rw [List.append_assoc, List.append_assoc, List.take_append_of_le_length (by rw [leBytes_length]; omega)]
  rw [List.take_of_length_le (by rw [leBytes_length]; omega)]

theorem drop_append_eq {α} (a b : List α) (n m : Nat) (h : a.length = n) : (a ++ b).drop (n + m) = b.drop m := by
  subst h
  rw [List.drop_append, List.drop_eq_nil_of_le (by omega)]
  simp

theorem cmsgBytes_level (c l t : Nat) (d : List Byte) : ((cmsgBytes c l t d).drop 8).take 4 = leBytes 4 l := by
  unfold cmsgBytes
  rw [List.append_assoc, List.append_assoc, drop_append_eq _ _ 8 0 (leBytes_length _ _), List.drop_zero,
    List.take_append_of_le_length (by rw [leBytes_length]; omega), List.take_of_length_le (by rw [leBytes_length]; omega)]

theorem cmsgBytes_type (c l t : Nat) (d : List Byte) : ((cmsgBytes c l t d).drop 12).take 4 = leBytes 4 t := by
  unfold cmsgBytes
  rw [List.append_assoc, List.append_assoc, drop_append_eq _ _ 8 4 (leBytes_length _ _),
    drop_append_eq _ _ 4 0 (leBytes_length _ _), List.drop_zero,
    List.take_append_of_le_length (by rw [leBytes_length]; omega), List.take_of_length_le (by rw [leBytes_length]; omega)]

theorem cmsgBytes_data (c l t : Nat) (d : List Byte) (m : Nat) : (cmsgBytes c l t d).drop (16 + m) = d.drop m := by
  unfold cmsgBytes
  rw [List.append_assoc, List.append_assoc, show 16 + m = 8 + (4 + (4 + m)) by omega,
    drop_append_eq _ _ 8 _ (leBytes_length _ _), drop_append_eq _ _ 4 _ (leBytes_length _ _),
    drop_append_eq _ _ 4 _ (leBytes_length _ _)]

theorem putCmsg_fits (level type : Nat) (data : List Byte) (b : Vector Byte ControlSize) (p left : Nat)
    (hl : 16 + (data.length + 7) / 8 * 8 ≤ left) :
    putCmsg level type data { buf := b, pos := p, left := left } =
      { buf := storeAt b p (cmsgBytes (16 + data.length) level type data), pos := p + (16 + (data.length + 7) / 8 * 8),
        left := left - (16 + (data.length + 7) / 8 * 8) } := by
  have e1 : min (16 + data.length) left = 16 + data.length := by omega
  have e2 : min (16 + (data.length + 7) / 8 * 8) left = 16 + (data.length + 7) / 8 * 8 := by omega
  have e3 : data.take (16 + data.length - 16) = data := List.take_of_length_le (by omega)
  unfold putCmsg
  simp only [e1, e2, e3]
  rw [if_neg (by omega)]
  rfl

/-- The control message of a time stamp. -/
def stampBytes (a : Arrival) : List Byte := cmsgBytes 32 1 29 (leBytes 8 a.sec.toNat ++ leBytes 8 a.usec.toNat)

/-- The control message of a drop count. -/
def dropBytes (a : Arrival) : List Byte := cmsgBytes 20 1 40 (leBytes 4 a.drops.toNat)

theorem stampBytes_length (a : Arrival) : (stampBytes a).length = 32 := by
  simp [stampBytes, cmsgBytes_length, leBytes_length]

theorem dropBytes_length (a : Arrival) : (dropBytes a).length = 20 := by
  simp [dropBytes, cmsgBytes_length, leBytes_length]

/-- With time stamps on, a full buffer takes the time stamp and nothing else. -/
theorem ctlOf_ts (o : SockOpts) (a : Arrival) (h : Hdr) (ho : o.ts = true) (hl : h.controllen = 32) :
    (ctlOf o a h).control.toList = stampBytes a ∧ (ctlOf o a h).controllen = 32 := by
  have hd : (leBytes 8 a.sec.toNat ++ leBytes 8 a.usec.toNat).length = 16 := by simp [leBytes_length]
  have key : (putCmsg 1 29 (leBytes 8 a.sec.toNat ++ leBytes 8 a.usec.toNat)
      { buf := h.control, pos := 0, left := h.controllen }) =
      { buf := storeAt h.control 0 (stampBytes a), pos := 32, left := 0 } := by
    rw [putCmsg_fits _ _ _ _ _ _ (by rw [hd, hl]; omega), hd, hl]
    rfl
  have k2 : ctlOf o a h = { control := storeAt h.control 0 (stampBytes a), controllen := 32 } := by
    unfold ctlOf
    simp only [ho, if_true]
    rw [key]
    have : ∀ data, putCmsg 1 40 data { buf := storeAt h.control 0 (stampBytes a), pos := 32, left := 0 } =
        { buf := storeAt h.control 0 (stampBytes a), pos := 32, left := 0 } := by
      intro data
      unfold putCmsg
      rw [if_pos (by show 0 < 16; omega)]
    rw [this]
    split <;> rfl
  rw [k2]
  refine ⟨?_, rfl⟩
  have := storeAt_take h.control (stampBytes a) (by rw [stampBytes_length]; omega)
  rw [stampBytes_length, List.take_of_length_le (by rw [ctl_length]; exact Nat.le_refl _)] at this
  exact this

/-- With time stamps off, a drop count fits if there are 24 bytes. -/
theorem ctlOf_drop (o : SockOpts) (a : Arrival) (h : Hdr) (ho : o.ts = false) (hv : o.ovfl = true) (hd : a.drops ≠ 0)
    (hl : 24 ≤ h.controllen) :
    (ctlOf o a h).control.toList.take 20 = dropBytes a ∧ (ctlOf o a h).controllen = 24 := by
  have hlen : (leBytes 4 a.drops.toNat).length = 4 := leBytes_length _ _
  have k2 : ctlOf o a h = { control := storeAt h.control 0 (dropBytes a), controllen := 24 } := by
    unfold ctlOf
    simp only [ho, Bool.false_eq_true, if_false]
    rw [if_pos ⟨hv, hd⟩]
    rw [putCmsg_fits _ _ _ _ _ _ (by rw [hlen]; omega), hlen]
    rfl
  rw [k2]
  refine ⟨?_, rfl⟩
  have := storeAt_take h.control (dropBytes a) (by rw [dropBytes_length]; omega)
  rwa [dropBytes_length] at this

/-- With nothing to report, or no room, the control length becomes 0. -/
theorem ctlOf_none (o : SockOpts) (a : Arrival) (h : Hdr) (ho : o.ts = false)
    (hn : o.ovfl = false ∨ a.drops = 0 ∨ h.controllen < 16) : (ctlOf o a h).controllen = 0 := by
  unfold ctlOf
  simp only [ho, Bool.false_eq_true, if_false]
  split
  · rename_i h1
    rcases hn with hn | hn | hn
    · rw [hn] at h1; exact absurd h1.1 (by decide)
    · exact absurd hn h1.2
    · unfold putCmsg
      rw [if_pos hn]
  · rfl

/-! ## Reading what the kernel wrote -/

theorem readCtl_stamp (h : Hdr) (a : Arrival) (st : Statistics) (hc : h.control.toList = stampBytes a)
    (hl : h.controllen = 32) :
    readCtl h st = .ok (readCmsgs TimePoint.default st [.timestamp a.sec a.usec]) := by
  have ht : h.control.toList.take 32 = stampBytes a := by
    rw [List.take_of_length_le (by rw [ctl_length]; exact Nat.le_refl _), hc]
  have h0 : h.load 0 8 = .ok 32 := by
    rw [load_take h _ 0 8 32 ht (by omega) (by omega), List.drop_zero, stampBytes, cmsgBytes_len,
      leNat_leBytes_lt (by decide)]
  have h1 : h.load 8 4 = .ok 1 := by
    rw [load_take h _ 8 4 32 ht (by omega) (by omega), stampBytes, cmsgBytes_level, leNat_leBytes_lt (by decide)]
  have h2 : h.load 12 4 = .ok 29 := by
    rw [load_take h _ 12 4 32 ht (by omega) (by omega), stampBytes, cmsgBytes_type, leNat_leBytes_lt (by decide)]
  have h3 : h.load 16 8 = .ok a.sec.toNat := by
    rw [load_take h _ 16 8 32 ht (by omega) (by omega), stampBytes, show (16 : Nat) = 16 + 0 from rfl, cmsgBytes_data,
      List.drop_zero, List.take_append_of_le_length (by rw [leBytes_length]; omega),
      List.take_of_length_le (by rw [leBytes_length]; omega), leNat_leBytes_lt (by have := a.sec.isLt; omega)]
  have h4 : h.load 24 8 = .ok a.usec.toNat := by
    rw [load_take h _ 24 8 32 ht (by omega) (by omega), stampBytes, show (24 : Nat) = 16 + 8 from rfl, cmsgBytes_data,
      show (8 : Nat) = 8 + 0 from rfl, drop_append_eq _ _ 8 0 (leBytes_length _ _),
      List.drop_zero, List.take_of_length_le (by rw [leBytes_length]; omega),
      leNat_leBytes_lt (by have := a.usec.isLt; omega)]
  unfold readCtl
  rw [if_pos (by rw [hl]; decide), ctlLoop.eq_def]
  have hone : ctlOne h 0 TimePoint.default st =
      .ok (TimePoint.fromMicrosecond ((a.sec * 1000000#64 + a.usec).toNat : Int), st, 32) := by
    unfold ctlOne
    simp only [Nat.zero_add, CmsghdrSize]
    rw [h0, h1, h2]
    simp only [Outcome.ok_bind]
    rw [if_pos (show 1 = SOL_SOCKET from rfl), if_pos ⟨rfl, by rw [hl]; decide⟩, h3, h4]
    simp only [Outcome.ok_bind, BitVec.ofNat_toNat, BitVec.setWidth_eq]
    rfl
  rw [hone]
  have hn : nextHdr h.controllen 0 32 = none := by rw [hl]; decide
  simp only []
  split
  · rfl
  · rename_i h5
    rw [hn] at h5; cases h5

theorem readCtl_drop (h : Hdr) (a : Arrival) (st : Statistics) (hc : h.control.toList.take 20 = dropBytes a)
    (hl : h.controllen = 24) :
    readCtl h st = .ok (readCmsgs TimePoint.default st [.rxqOvfl a.drops]) := by
  have h0 : h.load 0 8 = .ok 20 := by
    rw [load_take h _ 0 8 20 hc (by omega) (by omega), List.drop_zero, dropBytes, cmsgBytes_len,
      leNat_leBytes_lt (by decide)]
  have h1 : h.load 8 4 = .ok 1 := by
    rw [load_take h _ 8 4 20 hc (by omega) (by omega), dropBytes, cmsgBytes_level, leNat_leBytes_lt (by decide)]
  have h2 : h.load 12 4 = .ok 40 := by
    rw [load_take h _ 12 4 20 hc (by omega) (by omega), dropBytes, cmsgBytes_type, leNat_leBytes_lt (by decide)]
  have h3 : h.load 16 4 = .ok a.drops.toNat := by
    rw [load_take h _ 16 4 20 hc (by omega) (by omega), dropBytes, show (16 : Nat) = 16 + 0 from rfl, cmsgBytes_data,
      List.drop_zero, List.take_of_length_le (by rw [leBytes_length]; omega),
      leNat_leBytes_lt (by have := a.drops.isLt; omega)]
  unfold readCtl
  rw [if_pos (by rw [hl]; decide), ctlLoop.eq_def]
  have hone : ctlOne h 0 TimePoint.default st =
      .ok (TimePoint.default, { st with rx_dropped := st.rx_dropped + a.drops.setWidth 64 }, 20) := by
    unfold ctlOne
    simp only [Nat.zero_add, CmsghdrSize]
    rw [h0, h1, h2]
    simp only [Outcome.ok_bind]
    rw [if_pos (show 1 = SOL_SOCKET from rfl), if_neg (fun hx => absurd hx.1 (by decide)), if_pos ⟨rfl, by decide⟩, h3]
    simp only [Outcome.ok_bind, BitVec.ofNat_toNat]
    rfl
  rw [hone]
  have hn : nextHdr h.controllen 0 20 = none := by rw [hl]; decide
  simp only []
  split
  · rfl
  · rename_i h5
    rw [hn] at h5; cases h5

theorem readCtl_none (h : Hdr) (st : Statistics) (hl : h.controllen = 0) :
    readCtl h st = .ok (readCmsgs TimePoint.default st []) := by
  unfold readCtl
  rw [if_neg (by rw [hl]; decide)]
  rfl

/-- The control messages a message brings, given the room in its header. -/
def seen (o : SockOpts) (room : Nat) (a : Arrival) : List Cmsg :=
  if o.ts then [.timestamp a.sec a.usec]
  else if o.ovfl ∧ a.drops ≠ 0 ∧ 24 ≤ room then [.rxqOvfl a.drops]
  else []

/-- The control lengths that occur. -/
def GoodLen (o : SockOpts) (len : Nat) : Prop := if o.ts then len = 32 else (len = 32 ∨ len = 24 ∨ len = 0)

theorem GoodLen_full (o : SockOpts) : GoodLen o 32 := by unfold GoodLen; split <;> simp

theorem ctlOf_good (o : SockOpts) (a : Arrival) (h : Hdr) (hg : GoodLen o h.controllen) :
    GoodLen o (ctlOf o a h).controllen ∧
      ∀ st, readCtl (ctlOf o a h) st = .ok (readCmsgs TimePoint.default st (seen o h.controllen a)) := by
  unfold GoodLen at hg ⊢
  unfold seen
  cases ho : o.ts with
  | true =>
    rw [ho] at hg
    obtain ⟨h1, h2⟩ := ctlOf_ts o a h ho hg
    exact ⟨h2, fun st => readCtl_stamp _ a st h1 h2⟩
  | false =>
    rw [ho] at hg
    simp only [Bool.false_eq_true, if_false] at hg ⊢
    by_cases hc : o.ovfl = true ∧ a.drops ≠ 0 ∧ 24 ≤ h.controllen
    · rw [if_pos hc]
      obtain ⟨h1, h2⟩ := ctlOf_drop o a h ho hc.1 hc.2.1 hc.2.2
      exact ⟨by omega, fun st => readCtl_drop _ a st h1 h2⟩
    · rw [if_neg hc]
      have : (ctlOf o a h).controllen = 0 := by
        apply ctlOf_none o a h ho
        by_cases h1 : o.ovfl = true
        · by_cases h2 : a.drops = 0
          · exact .inr (.inl h2)
          · right; right
            have : ¬ 24 ≤ h.controllen := fun h3 => hc ⟨h1, h2, h3⟩
            omega
        · left; simpa using h1
      exact ⟨by omega, fun st => readCtl_none _ st this⟩

/-! ## Refinement -/

theorem storeHdrs_get (ms : List RawMsg) (i : Nat) (hs : Vector Hdr FramesLen) (j : Nat) (hj : j < FramesLen) :
    (storeHdrs ms i hs)[j] = if h : i ≤ j ∧ j < i + ms.length then (ms[j - i]'(by omega)).hdr else hs[j] := by
  induction ms generalizing i hs with
  | nil =>
    rw [dif_neg (by simp only [List.length_nil]; omega)]
    rfl
  | cons m ms ih =>
    unfold storeHdrs
    split
    · rename_i hi
      rw [ih]
      by_cases h1 : i = j
      · subst h1
        rw [dif_neg (by omega), dif_pos (by simp only [List.length_cons]; omega)]
        simp
      · by_cases h2 : i ≤ j ∧ j < i + (m :: ms).length
        · rw [dif_pos h2, dif_pos (by simp only [List.length_cons] at h2; omega)]
          have : j - i = (j - (i + 1)) + 1 := by omega
          simp only [this, List.getElem_cons_succ]
        · rw [dif_neg h2, dif_neg (by simp only [List.length_cons] at h2; omega), Vector.getElem_set, if_neg h1]
    · rename_i hi
      have hx : ¬ (i ≤ j ∧ j < i + (m :: ms).length) := by omega
      simp only [hx, dite_false]

theorem storeMsg_cmsgs (old : CanfdFrame) (m m' : RxMsg) (h1 : m.classic = m'.classic) (h2 : m.frame = m'.frame) :
    storeMsg old m = storeMsg old m' := by
  unfold storeMsg
  rw [h1, h2]

theorem storeMsgs_cmsgs (raw : List RawMsg) (ms : List RxMsg) (i : Nat) (bufs : Vector CanfdFrame FramesLen)
    (hl : raw.length = ms.length)
    (hm : ∀ k (h1 : k < raw.length) (h2 : k < ms.length), raw[k].classic = ms[k].classic ∧ raw[k].frame = ms[k].frame) :
    storeMsgs (raw.map fun m => ⟨m.classic, m.frame, []⟩) i bufs = storeMsgs ms i bufs := by
  induction raw generalizing ms i bufs with
  | nil => cases ms with
    | nil => rfl
    | cons _ _ => simp at hl
  | cons r raw ih =>
    cases ms with
    | nil => simp at hl
    | cons m ms =>
      have h0 := hm 0 (by simp) (by simp)
      simp only [List.getElem_cons_zero] at h0
      rw [List.map_cons]
      unfold storeMsgs
      split
      · rw [storeMsg_cmsgs _ (⟨r.classic, r.frame, []⟩ : RxMsg) m h0.1 h0.2]
        apply ih ms
        · simpa using hl
        · intro k h1 h2
          have := hm (k + 1) (by simpa using h1) (by simpa using h2)
          simpa using this
      · rfl

theorem readOneRaw_eq (buf : CanfdFrame) (h : Hdr) (cs : List Cmsg) (s : ReadState)
    (hr : ∀ st, readCtl h st = .ok (readCmsgs TimePoint.default st cs)) : readOneRaw buf h s = readOne buf cs s := by
  unfold readOneRaw readOne
  split
  · rw [hr]
    simp only [Outcome.ok_bind]
  · rfl

theorem readLoopRaw_eq (bufs : Vector CanfdFrame FramesLen) (hs : Vector Hdr FramesLen) (ms : List RxMsg) (i : Nat)
    (s : ReadState)
    (hr : ∀ k (h1 : k < ms.length) (h2 : i + k < FramesLen) (st : Statistics),
      readCtl hs[i + k] st = .ok (readCmsgs TimePoint.default st ms[k].cmsgs)) :
    readLoopRaw bufs hs ms.length i s = readLoop bufs ms i s := by
  induction ms generalizing i s with
  | nil => rfl
  | cons m ms ih =>
    rw [List.length_cons]
    unfold readLoopRaw readLoop
    split
    · rename_i hi
      rw [readOneRaw_eq bufs[i] hs[i] m.cmsgs s (hr 0 (by simp) hi)]
      congr 1
      funext s'
      apply ih
      intro k h1 h2 st
      have := hr (k + 1) (by simpa using h1) (by omega) st
      simp only [List.getElem_cons_succ] at this
      have e : i + 1 + k = i + (k + 1) := by omega
      simp only [e]
      exact this
    · rfl

/-- The messages as `Model/SocketCan.lean` sees them. -/
def rxMsgs (o : SockOpts) (hs : Vector Hdr FramesLen) (as : List Arrival) : List RxMsg :=
  List.zipWith (fun a h => ⟨a.classic, a.frame, seen o h.controllen a⟩) as hs.toList

theorem rawMsgs_length (o : SockOpts) (hs : Vector Hdr FramesLen) (as : List Arrival) (h4 : as.length ≤ 4) :
    (rawMsgs o hs as).length = as.length := by
  simp [rawMsgs, FramesLen]; omega

theorem rxMsgs_length (o : SockOpts) (hs : Vector Hdr FramesLen) (as : List Arrival) (h4 : as.length ≤ 4) :
    (rxMsgs o hs as).length = as.length := by
  simp [rxMsgs, FramesLen]; omega

/-- All headers have a length that occurs. -/
def Good (o : SockOpts) (hs : Vector Hdr FramesLen) : Prop := ∀ j (hj : j < FramesLen), GoodLen o hs[j].controllen

/-- The headers after messages arrived. -/
def hdrsAfter (o : SockOpts) (hs : Vector Hdr FramesLen) (as : List Arrival) : Vector Hdr FramesLen := storeHdrs (rawMsgs o hs as) 0 hs

theorem hdrsAfter_get (o : SockOpts) (hs : Vector Hdr FramesLen) (as : List Arrival) (h4 : as.length ≤ 4) (j : Nat) (hj : j < FramesLen) :
    (hdrsAfter o hs as)[j] = if h : j < as.length then ctlOf o as[j] hs[j] else hs[j] := by
  unfold hdrsAfter
  rw [storeHdrs_get]
  by_cases h : j < as.length
  · rw [dif_pos h, dif_pos (by rw [rawMsgs_length o hs as h4]; omega)]
    simp [rawMsgs]
  · rw [dif_neg h, dif_neg (by rw [rawMsgs_length o hs as h4]; omega)]

/-- `read` does what `Model/SocketCan.lean` says, for the control messages that got through. -/
theorem read_refines (o : SockOpts) (s : CIface) (out : Vector FrameT FramesLen) (as : List Arrival) (h0 : 0 < as.length)
    (h4 : as.length ≤ 4) (hg : Good o s.hdrs) :
    s.read out (arriveAns o s as) = (do
      let r ← s.iface.read out { res := as.length, errno := 0, msgs := rxMsgs o s.hdrs as }
      return { result := r.result, out_frames := r.out_frames, read := r.read,
               iface := { iface := r.iface, hdrs := hdrsAfter o s.hdrs as } }) := by
  unfold CIface.read Iface.read arriveAns
  simp only []
  rw [if_neg (by omega), if_neg (by omega)]
  have e1 : (rawMsgs o s.hdrs as).take ((as.length : Int).toNat) = rawMsgs o s.hdrs as :=
    List.take_of_length_le (by rw [rawMsgs_length o s.hdrs as h4]; omega)
  have e2 : (rxMsgs o s.hdrs as).take ((as.length : Int).toNat) = rxMsgs o s.hdrs as :=
    List.take_of_length_le (by rw [rxMsgs_length o s.hdrs as h4]; omega)
  rw [e1, e2]
  have hl : (rawMsgs o s.hdrs as).length = (rxMsgs o s.hdrs as).length := by rw [rawMsgs_length o s.hdrs as h4, rxMsgs_length o s.hdrs as h4]
  rw [storeMsgs_cmsgs (rawMsgs o s.hdrs as) (rxMsgs o s.hdrs as) 0 s.iface.bufs hl
    (by intro k h1 h2; simp [rawMsgs, rxMsgs])]
  rw [hl, readLoopRaw_eq]
  · cases readLoop (storeMsgs (rxMsgs o s.hdrs as) 0 s.iface.bufs) (rxMsgs o s.hdrs as) 0
      { stats := s.iface.stats, out_frames := out, out_frames_read := 0 } <;> rfl
  · intro k h1 h2 st
    have hk : k < as.length := by rwa [rxMsgs_length o s.hdrs as h4] at h1
    have := hdrsAfter_get o s.hdrs as h4 (0 + k) h2
    unfold hdrsAfter at this
    rw [this, dif_pos (by omega)]
    have := (ctlOf_good o as[0 + k] s.hdrs[0 + k] (hg (0 + k) h2)).2 st
    rw [this]
    simp [rxMsgs]

theorem hdrsAfter_good (o : SockOpts) (hs : Vector Hdr FramesLen) (as : List Arrival) (h4 : as.length ≤ 4) (hg : Good o hs)
    (j : Nat) (hj : j < FramesLen) : GoodLen o (hdrsAfter o hs as)[j].controllen := by
  rw [hdrsAfter_get o hs as h4]
  split
  · exact (ctlOf_good o _ _ (hg j hj)).1
  · exact hg j hj

/-! ## Histories -/

/-- A call with the answer `Model/SocketCan.lean` takes. -/
def absOp (o : SockOpts) (hs : Vector Hdr FramesLen) : KOp → IfaceOp
  | .write f n a => .write f n a
  | .arrive out as => .read out { res := as.length, errno := 0, msgs := rxMsgs o hs as }
  | .fail out e => .read out { res := -1, errno := e, msgs := [] }

/-- The headers after a call. -/
def hdrsOp (o : SockOpts) (hs : Vector Hdr FramesLen) (op : KOp) : Vector Hdr FramesLen := hdrsAfter o hs (arrivals op)

theorem hdrsAfter_nil (o : SockOpts) (hs : Vector Hdr FramesLen) : hdrsAfter o hs [] = hs := rfl

theorem valid_abs (o : SockOpts) (hs : Vector Hdr FramesLen) (op : KOp) (h : ValidKOp op) : ValidOp (absOp o hs op) := by
  cases op with
  | write f n a => exact h
  | arrive out as => exact ⟨by show (as.length : Int) ≤ 4; have := h.2; omega, fun _ => by rw [rxMsgs_length o hs as h.2]⟩
  | fail out e => exact ⟨by show (-1 : Int) ≤ 4; omega, fun h => absurd h (by show ¬ (0 : Int) < -1; omega)⟩

theorem arrivals_le (op : KOp) (h : ValidKOp op) : (arrivals op).length ≤ 4 := by
  cases op with
  | arrive out as => exact h.2
  | _ => exact Nat.zero_le _

theorem kstep_eq (o : SockOpts) (s : CIface) (op : KOp) (hg : Good o s.hdrs) (hv : ValidKOp op) :
    kstep o s op = (do let i ← s.iface.step (absOp o s.hdrs op); return { iface := i, hdrs := hdrsOp o s.hdrs op }) := by
  cases op with
  | write f n a =>
    show (do let r ← s.write f n a; return r.iface) = _
    simp only [CIface.write, absOp, Iface.step, hdrsOp, arrivals, hdrsAfter_nil]
    cases s.iface.write f n a <;> rfl
  | arrive out as =>
    show (do let r ← s.read out (arriveAns o s as); return r.iface) = _
    rw [read_refines o s out as hv.1 hv.2 hg]
    simp only [absOp, Iface.step, hdrsOp, arrivals]
    cases s.iface.read out _ <;> rfl
  | fail out e => rfl

/-- The calls of a history with the answers `Model/SocketCan.lean` takes. -/
def absOps (o : SockOpts) : Vector Hdr FramesLen → List KOp → List IfaceOp
  | _, [] => []
  | hs, op :: ops => absOp o hs op :: absOps o (hdrsOp o hs op) ops

/-- The headers after a history. -/
def hdrsRun (o : SockOpts) : Vector Hdr FramesLen → List KOp → Vector Hdr FramesLen
  | hs, [] => hs
  | hs, op :: ops => hdrsRun o (hdrsOp o hs op) ops

theorem hdrsOp_good (o : SockOpts) (hs : Vector Hdr FramesLen) (op : KOp) (hg : Good o hs) (hv : ValidKOp op) :
    Good o (hdrsOp o hs op) := fun j hj => hdrsAfter_good o hs (arrivals op) (arrivals_le op hv) hg j hj

theorem hdrsRun_good (o : SockOpts) (hs : Vector Hdr FramesLen) (ops : List KOp) (hg : Good o hs)
    (hv : ∀ op ∈ ops, ValidKOp op) : Good o (hdrsRun o hs ops) := by
  induction ops generalizing hs with
  | nil => exact hg
  | cons op ops ih =>
    exact ih _ (hdrsOp_good o hs op hg (hv op (List.mem_cons_self ..))) (fun p hp => hv p (List.mem_cons_of_mem _ hp))

theorem valid_absOps (o : SockOpts) (hs : Vector Hdr FramesLen) (ops : List KOp) (hv : ∀ op ∈ ops, ValidKOp op) :
    ∀ op ∈ absOps o hs ops, ValidOp op := by
  induction ops generalizing hs with
  | nil => intro op h; cases h
  | cons p ops ih =>
    intro op h
    rcases List.mem_cons.1 h with h | h
    · subst h; exact valid_abs o hs p (hv p (List.mem_cons_self ..))
    · exact ih _ (fun p hp => hv p (List.mem_cons_of_mem _ hp)) op h

theorem krun_eq (o : SockOpts) (s : CIface) (ops : List KOp) (hg : Good o s.hdrs) (hv : ∀ op ∈ ops, ValidKOp op) :
    krun o s ops = (do let i ← s.iface.run (absOps o s.hdrs ops); return { iface := i, hdrs := hdrsRun o s.hdrs ops }) := by
  induction ops generalizing s with
  | nil => rfl
  | cons op ops ih =>
    rw [krun, kstep_eq o s op hg (hv op (List.mem_cons_self ..))]
    simp only [absOps, Iface.run, hdrsRun]
    cases hst : s.iface.step (absOp o s.hdrs op) with
    | ub r => rfl
    | ok i =>
      exact ih { iface := i, hdrs := hdrsOp o s.hdrs op } (hdrsOp_good o s.hdrs op hg (hv op (List.mem_cons_self ..)))
        (fun p hp => hv p (List.mem_cons_of_mem _ hp))

theorem zip_stamped (o : SockOpts) (as : List Arrival) (l : List Hdr) (ho : o.ts = true) (h4 : as.length ≤ l.length) :
    List.zipWith (fun a (h : Hdr) => (⟨a.classic, a.frame, seen o h.controllen a⟩ : RxMsg)) as l = as.map Arrival.stamped := by
  induction as generalizing l with
  | nil => simp
  | cons a as ih =>
    cases l with
    | nil => simp at h4
    | cons h l =>
      rw [List.zipWith_cons_cons, ih l (by simpa using h4), List.map_cons]
      simp [seen, ho, Arrival.stamped]

theorem absOp_ts (o : SockOpts) (hs : Vector Hdr FramesLen) (op : KOp) (ho : o.ts = true) (hv : ValidKOp op) :
    absOp o hs op = op.stamped := by
  cases op with
  | arrive out as =>
    show IfaceOp.read _ _ = IfaceOp.read _ _
    rw [rxMsgs, zip_stamped o as _ ho (by have := hv.2; simp; exact this)]
  | _ => rfl

theorem absOps_ts (o : SockOpts) (hs : Vector Hdr FramesLen) (ops : List KOp) (ho : o.ts = true)
    (hv : ∀ op ∈ ops, ValidKOp op) : absOps o hs ops = ops.map KOp.stamped := by
  induction ops generalizing hs with
  | nil => rfl
  | cons op ops ih =>
    rw [absOps, absOp_ts o hs op ho (hv op (List.mem_cons_self ..)), ih _ (fun p hp => hv p (List.mem_cons_of_mem _ hp)),
      List.map_cons]

theorem fresh_good (o : SockOpts) (index : Nat) (name : String) (fd : Int)
    (junk : Vector (Vector Byte ControlSize) FramesLen) : Good o (CIface.mk' index name fd junk).hdrs := by
  intro j hj
  have : (CIface.mk' index name fd junk).hdrs[j].controllen = 32 := by simp [CIface.mk']; rfl
  rw [this]
  exact GoodLen_full o

/-! ## What a header holds in the end -/

/-- With time stamps on: what was there, or the time stamp of the last message that came in this place. -/
theorem hdrsRun_ts (o : SockOpts) (hs : Vector Hdr FramesLen) (ops : List KOp) (ho : o.ts = true) (hg : Good o hs)
    (hv : ∀ op ∈ ops, ValidKOp op) (j : Nat) (hj : j < FramesLen) :
    (hdrsRun o hs ops)[j].data =
      match (slotArrivals j ops).getLast? with
      | none => hs[j].data
      | some a => stampBytes a := by
  induction ops generalizing hs with
  | nil => rfl
  | cons op ops ih =>
    have hvo := hv op (List.mem_cons_self ..)
    rw [hdrsRun, ih _ (hdrsOp_good o hs op hg hvo) (fun p hp => hv p (List.mem_cons_of_mem _ hp))]
    have hget := hdrsAfter_get o hs (arrivals op) (arrivals_le op hvo) j hj
    unfold slotArrivals
    rw [List.filterMap_cons]
    by_cases h : j < (arrivals op).length
    · rw [dif_pos h] at hget
      rw [List.getElem?_eq_getElem h]
      simp only []
      rw [List.getLast?_cons]
      cases hl : (ops.filterMap fun op => (arrivals op)[j]?).getLast? with
      | some a => rfl
      | none =>
        simp only [Option.getD_none]
        have hlen : hs[j].controllen = 32 := by have := hg j hj; rw [GoodLen, ho] at this; exact this
        obtain ⟨h1, h2⟩ := ctlOf_ts o (arrivals op)[j] hs[j] ho hlen
        show (hdrsAfter o hs (arrivals op))[j].data = _
        rw [hget, Hdr.data, h1, h2, List.take_of_length_le (by rw [stampBytes_length]; omega)]
    · rw [dif_neg h] at hget
      rw [List.getElem?_eq_none (by omega)]
      simp only []
      have hh : (hdrsOp o hs op)[j] = hs[j] := hget
      rw [hh]

/-! ## Drop counts with time stamps off -/

/-- The drop counts a place still lets through. -/
def counted (len : Nat) (l : List (BitVec 32)) : List (BitVec 32) := if 24 ≤ len then l.takeWhile (· ≠ 0) else []

/-- The drop count a message brings in its place. -/
def contrib (o : SockOpts) (len : Nat) : Option Arrival → List (BitVec 32)
  | none => []
  | some a => dropsOf (seen o len a)

theorem slot_step (o : SockOpts) (hs : Vector Hdr FramesLen) (op : KOp) (ops : List KOp) (ho : o.ts = false)
    (hov : o.ovfl = true) (hv : ValidKOp op) (hg : Good o hs) (j : Nat) (hj : j < FramesLen) :
    counted hs[j].controllen ((slotArrivals j (op :: ops)).map Arrival.drops) =
      contrib o hs[j].controllen (arrivals op)[j]? ++
        counted (hdrsOp o hs op)[j].controllen ((slotArrivals j ops).map Arrival.drops) := by
  have hget := hdrsAfter_get o hs (arrivals op) (arrivals_le op hv) j hj
  unfold slotArrivals
  rw [List.filterMap_cons]
  by_cases h : j < (arrivals op).length
  · rw [dif_pos h] at hget
    rw [List.getElem?_eq_getElem h]
    have hh : (hdrsOp o hs op)[j] = ctlOf o (arrivals op)[j] hs[j] := hget
    rw [hh]
    simp only [contrib, List.map_cons]
    have hgj := hg j hj
    rw [GoodLen, ho] at hgj
    simp only [Bool.false_eq_true, if_false] at hgj
    generalize (arrivals op)[j] = a
    generalize hs[j] = hd at hgj
    by_cases hl : 24 ≤ hd.controllen
    · by_cases hd0 : a.drops = 0
      · rw [ctlOf_none o a hd ho (.inr (.inl hd0))]
        simp [counted, seen, ho, hd0, dropsOf]
      · rw [(ctlOf_drop o a hd ho hov hd0 hl).2]
        have hd1 : ¬ a.drops = 0#32 := hd0
        simp [counted, seen, ho, hov, hd1, hl, dropsOf, List.takeWhile_cons]
    · have h0 : (ctlOf o a hd).controllen = 0 := ctlOf_none o a hd ho (.inr (.inr (by omega)))
      rw [h0]
      simp [counted, seen, ho, hl, dropsOf]
  · rw [dif_neg h] at hget
    rw [List.getElem?_eq_none (by omega)]
    have hh : (hdrsOp o hs op)[j] = hs[j] := hget
    rw [hh]
    rfl

theorem batch_drops (o : SockOpts) (hs : Vector Hdr FramesLen) (as : List Arrival) (h4 : as.length ≤ 4) :
    (rxMsgs o hs as).flatMap (fun m => dropsOf m.cmsgs) =
      contrib o (hs[0]'(by decide)).controllen as[0]? ++ contrib o (hs[1]'(by decide)).controllen as[1]? ++
      contrib o (hs[2]'(by decide)).controllen as[2]? ++ contrib o (hs[3]'(by decide)).controllen as[3]? := by
  have hl : hs.toList = [hs[0]'(by decide), hs[1]'(by decide), hs[2]'(by decide), hs[3]'(by decide)] := by
    apply List.ext_getElem
    · simp [FramesLen]
    · intro k h1 h2
      match k, h2 with
      | 0, _ | 1, _ | 2, _ | 3, _ => simp
  rw [rxMsgs, hl]
  match as, h4 with
  | [], _ => rfl
  | [a], _ => simp [contrib]
  | [a, b], _ => simp [contrib]
  | [a, b, c], _ => simp [contrib]
  | [a, b, c, d], _ => simp [contrib]

/-! ## The bytes left in the buffers do not matter -/

theorem ctlOf_len_congr (o : SockOpts) (a : Arrival) (h h' : Hdr) (hl : h.controllen = h'.controllen) :
    (ctlOf o a h).controllen = (ctlOf o a h').controllen := by
  have key : ∀ level type data (k k' : KCtl), k.pos = k'.pos → k.left = k'.left →
      (putCmsg level type data k).pos = (putCmsg level type data k').pos ∧
      (putCmsg level type data k).left = (putCmsg level type data k').left := by
    intro level type data k k' h1 h2
    unfold putCmsg
    rw [h2]
    split
    · exact ⟨h1, h2⟩
    · exact ⟨by simp only [h1], rfl⟩
  have key2 : ∀ (c : Prop) [Decidable c] level type data (k k' : KCtl), k.pos = k'.pos → k.left = k'.left →
      (if c then putCmsg level type data k else k).pos = (if c then putCmsg level type data k' else k').pos ∧
      (if c then putCmsg level type data k else k).left = (if c then putCmsg level type data k' else k').left := by
    intro c _ level type data k k' h1 h2
    split
    · exact key level type data k k' h1 h2
    · exact ⟨h1, h2⟩
  have h0 := key2 (o.ts = true) 1 29 (leBytes 8 a.sec.toNat ++ leBytes 8 a.usec.toNat)
    { buf := h.control, pos := 0, left := h.controllen } { buf := h'.control, pos := 0, left := h'.controllen } rfl hl
  exact (key2 (o.ovfl = true ∧ a.drops ≠ 0) 1 40 (leBytes 4 a.drops.toNat) _ _ h0.1 h0.2).1

/-- The control lengths agree. -/
def SameLen (hs hs' : Vector Hdr FramesLen) : Prop := ∀ j (hj : j < FramesLen), hs[j].controllen = hs'[j].controllen

theorem rxMsgs_congr (o : SockOpts) (hs hs' : Vector Hdr FramesLen) (as : List Arrival) (h : SameLen hs hs') :
    rxMsgs o hs as = rxMsgs o hs' as := by
  unfold rxMsgs
  apply List.ext_getElem
  · simp
  · intro k h1 h2
    have hk : k < FramesLen := by simp at h1; omega
    simp only [List.getElem_zipWith, Vector.getElem_toList]
    rw [h k hk]

theorem hdrsOp_congr (o : SockOpts) (hs hs' : Vector Hdr FramesLen) (op : KOp) (hv : ValidKOp op) (h : SameLen hs hs') :
    SameLen (hdrsOp o hs op) (hdrsOp o hs' op) := by
  intro j hj
  unfold hdrsOp
  rw [hdrsAfter_get o hs _ (arrivals_le op hv) j hj, hdrsAfter_get o hs' _ (arrivals_le op hv) j hj]
  split
  · exact ctlOf_len_congr o _ _ _ (h j hj)
  · exact h j hj

theorem absOp_congr (o : SockOpts) (hs hs' : Vector Hdr FramesLen) (op : KOp) (h : SameLen hs hs') :
    absOp o hs op = absOp o hs' op := by
  cases op with
  | arrive out as => simp only [absOp, rxMsgs_congr o hs hs' as h]
  | _ => rfl

theorem absOps_congr (o : SockOpts) (hs hs' : Vector Hdr FramesLen) (ops : List KOp) (hv : ∀ op ∈ ops, ValidKOp op)
    (h : SameLen hs hs') : absOps o hs ops = absOps o hs' ops ∧ SameLen (hdrsRun o hs ops) (hdrsRun o hs' ops) := by
  induction ops generalizing hs hs' with
  | nil => exact ⟨rfl, h⟩
  | cons op ops ih =>
    obtain ⟨h1, h2⟩ := ih _ _ (fun p hp => hv p (List.mem_cons_of_mem _ hp))
      (hdrsOp_congr o hs hs' op (hv op (List.mem_cons_self ..)) h)
    exact ⟨by rw [absOps, absOps, absOp_congr o hs hs' op h, h1], h2⟩

theorem stampBytes_isStamp (a : Arrival) : IsStampOf a (stampBytes a) := by
  refine ⟨stampBytes_length a, ?_, ?_, ?_, ?_, ?_⟩
  · rw [stampBytes, cmsgBytes_len, leNat_leBytes_lt (by decide)]
  · rw [stampBytes, cmsgBytes_level, leNat_leBytes_lt (by decide)]
  · rw [stampBytes, cmsgBytes_type, leNat_leBytes_lt (by decide)]
  · rw [stampBytes, show (16 : Nat) = 16 + 0 from rfl, cmsgBytes_data, List.drop_zero,
      List.take_append_of_le_length (by rw [leBytes_length]; omega),
      List.take_of_length_le (by rw [leBytes_length]; omega), leNat_leBytes_lt (by have := a.sec.isLt; omega)]
  · rw [stampBytes, show (24 : Nat) = 16 + 8 from rfl, cmsgBytes_data, show (8 : Nat) = 8 + 0 from rfl,
      drop_append_eq _ _ 8 0 (leBytes_length _ _), List.drop_zero, leNat_leBytes_lt (by have := a.usec.isLt; omega)]

theorem isStamp_refused (a : Arrival) (bs : List Byte) (h : IsStampOf a bs) : Refused bs :=
  ⟨by have := h.1; omega, .inr (.inr ⟨h.2.2.1, .inl h.2.2.2.1⟩)⟩

end Uavcan.Spec
