import Verif.Spec.SocketCan
import Verif.Lemmas.Can

namespace Uavcan.SocketCan
open Can Time Spec

/-! ## Bit facts -/

theorem and_twoPow_ne_zero (x m : BitVec 32) (k : Nat) (hk : k < 32) (hm : ∀ i : Fin 32, m.getLsbD i = decide (i.val = k)) :
    x &&& m ≠ 0 ↔ x.getLsbD k = true := by
  constructor
  · intro h
    apply Classical.byContradiction
    intro hx
    apply h
    apply BitVec.eq_of_getLsbD_eq
    intro i hi
    have := hm ⟨i, hi⟩
    simp only [BitVec.getLsbD_and] at this ⊢
    rw [this]
    by_cases e : i = k
    · subst e; simp [hx]
    · simp [e]
  · intro h h0
    have := congrArg (fun y => BitVec.getLsbD y k) h0
    have hk' := hm ⟨k, hk⟩
    simp only [BitVec.getLsbD_and, h, Bool.true_and] at this
    simp only [decide_true] at hk'
    rw [hk'] at this
    simp at this

theorem err_flag_iff (id : BitVec 32) : id &&& CAN_ERR_FLAG ≠ 0 ↔ IsErr id = true :=
  and_twoPow_ne_zero id _ 29 (by omega) (by decide)

theorem eff_mask_iff (id : BitVec 32) : id &&& CAN_EFF_MASK ≠ 0 ↔ canId29 id ≠ 0 := by
  have : CAN_EFF_MASK = MaskExtID := rfl
  rw [this, ← and_maskExt_toNat]
  constructor
  · intro h h2; exact h (BitVec.eq_of_toNat_eq (by simpa using h2))
  · intro h h2; rw [h2] at h; simp at h

/-- The identifier word `write` builds. -/
theorem txId_props (id : BitVec 32) :
    IsExtData (CAN_EFF_FLAG ||| (id &&& MaskExtID)) = true ∧
    canId29 (CAN_EFF_FLAG ||| (id &&& MaskExtID)) = canId29 id := by
  have h31 : CAN_EFF_FLAG.getLsbD 31 = true := by decide
  have h30 : CAN_EFF_FLAG.getLsbD 30 = false := by decide
  have h29 : CAN_EFF_FLAG.getLsbD 29 = false := by decide
  refine ⟨?_, ?_⟩
  · simp only [IsExtData, BitVec.getLsbD_or, BitVec.getLsbD_and, maskExt_getLsbD, h31, h30, h29]
    simp
  · rw [← and_maskExt_toNat, ← and_maskExt_toNat id]
    congr 1
    apply BitVec.eq_of_getLsbD_eq
    intro i hi
    have hz : ∀ k : Fin 32, k.val < 29 → CAN_EFF_FLAG.getLsbD k.val = false := by decide
    simp only [BitVec.getLsbD_or, BitVec.getLsbD_and, maskExt_getLsbD]
    by_cases h : i < 29
    · simp [h, hz ⟨i, hi⟩ h]
    · simp [h]

/-! ## write -/

/-- What one buffer holds after `write` has filled it from a frame. -/
def Filled (f : FrameT) (old new : CanfdFrame) : Prop :=
  new.can_id = CAN_EFF_FLAG ||| (f.id &&& MaskExtID) ∧
  new.len = BitVec.ofNat 8 f.dlc ∧
  new.flags = old.flags ∧ new.res0 = old.res0 ∧ new.res1 = old.res1 ∧
  ∀ k (h : k < 64), new.data[k] = if k < dlcToLength f.dlc then f.data[k] else old.data[k]

theorem writeLoop_ok (frames : Vector FrameT FramesLen) (n i : Nat) (bufs : Vector CanfdFrame FramesLen)
    (h : i + n ≤ 4) :
    ∃ bufs', writeLoop frames n i bufs = .ok bufs' ∧
      ∀ j (hj : j < 4), if i ≤ j ∧ j < i + n then Filled frames[j] bufs[j] bufs'[j] else bufs'[j] = bufs[j] := by
  induction n generalizing i bufs with
  | zero =>
    refine ⟨bufs, rfl, ?_⟩
    intro j hj; rw [if_neg (by omega)]
  | succ n ih =>
    have hi : i < 4 := by omega
    have hl := dlcToLength_le frames[i].dlc
    obtain ⟨v, hv, hvj⟩ := copyBytes_ok (m := 64) frames[i].data.toList frames[i].getDataLength 0 bufs[i].data
      (by simp [Frame.getDataLength]; omega) (by simp [Frame.getDataLength]; omega)
    obtain ⟨bufs', hb, hbj⟩ := ih (i + 1) (bufs.set i { bufs[i] with
        can_id := CAN_EFF_FLAG ||| (frames[i].id &&& MaskExtID), len := BitVec.ofNat 8 frames[i].getDLC, data := v })
      (by omega)
    refine ⟨bufs', ?_, ?_⟩
    · simp only [writeLoop, hi, dif_pos, hv, Outcome.ok_bind, hb]
    · intro j hj
      have := hbj j hj
      by_cases hji : j = i
      · subst hji
        rw [if_neg (by omega)] at this
        rw [if_pos (by omega), this]
        refine ⟨by simp, by simp [Frame.getDLC], by simp, by simp, by simp, ?_⟩
        intro k hk
        have hkk := hvj k hk
        have hg : frames[j].getDataLength = dlcToLength frames[j].dlc := rfl
        rw [hg] at hkk
        simp only [Vector.getElem_set_self, hkk]
        by_cases hc : k < dlcToLength frames[j].dlc
        · rw [if_pos hc, if_pos (by omega)]
          simp [hk]
        · rw [if_neg hc, if_neg (by omega)]
      · rw [Vector.getElem_set_ne _ _ (by omega)] at this
        by_cases hc : i + 1 ≤ j ∧ j < i + 1 + n
        · rw [if_pos hc] at this; rw [if_pos (by omega)]; exact this
        · rw [if_neg hc] at this; rw [if_neg (by omega)]; exact this

theorem writeLoop_ub (frames : Vector FrameT FramesLen) (n i : Nat) (bufs : Vector CanfdFrame FramesLen)
    (h : 4 < i + n) (hi : i ≤ 4) : writeLoop frames n i bufs = .ub .outOfBounds := by
  induction n generalizing i bufs with
  | zero => omega
  | succ n ih =>
    by_cases h4 : i < 4
    · have hl := dlcToLength_le frames[i].dlc
      obtain ⟨v, hv, -⟩ := copyBytes_ok (m := 64) frames[i].data.toList frames[i].getDataLength 0 bufs[i].data
        (by simp [Frame.getDataLength]; omega) (by simp [Frame.getDataLength]; omega)
      simp only [writeLoop, h4, dif_pos, hv, Outcome.ok_bind]
      exact ih (i + 1) _ (by omega) (by omega)
    · simp only [writeLoop, h4, dif_neg, not_false_eq_true]

/-- `write` with arguments within the array. -/
theorem write_ok (s : Iface) (frames : Vector FrameT FramesLen) (n : Nat) (ans : SysAns) (h0 : 0 < n) (h4 : n ≤ 4) :
    ∃ bufs', writeLoop frames n 0 s.bufs = .ok bufs' ∧
      (∀ j (hj : j < 4), if j < n then Filled frames[j] s.bufs[j] bufs'[j] else bufs'[j] = s.bufs[j]) ∧
      s.write frames n ans = .ok
        { result := if ans.res ≤ 0 then (if ans.errno = ENOBUFS ∨ ans.errno = EAGAIN then .BufferFull else .Failure)
                    else if ans.res.toNat < n then .SuccessPartial else .Success,
          written := queued ans, iface := { s with bufs := bufs' }, submitted := bufs'.toList.take n } := by
  obtain ⟨bufs', h1, h2⟩ := writeLoop_ok frames n 0 s.bufs (by omega)
  refine ⟨bufs', h1, ?_, ?_⟩
  · intro j hj; have := h2 j hj; simpa using this
  · have hn : n ≠ 0 := by omega
    simp only [Iface.write, hn, if_false, h1, Outcome.ok_bind, queued]
    by_cases hr : ans.res ≤ 0
    · have : ¬ 0 < ans.res := by omega
      simp only [hr, if_true, this, if_false]
      split <;> rfl
    · have : 0 < ans.res := by omega
      simp only [hr, if_false, this, if_true]
      split <;> rfl

/-! ## read -/

/-- The part of a buffer that comes from the message stored in it. -/
def Holds (b : CanfdFrame) (m : RxMsg) : Prop :=
  b.can_id = m.frame.can_id ∧ b.len = m.frame.len ∧ ∀ k (h : k < 64), k < RxMsg.room m → b.data[k] = m.frame.data[k]

theorem storeMsg_holds (old : CanfdFrame) (m : RxMsg) : Holds (storeMsg old m) m := by
  unfold storeMsg Holds RxMsg.room
  split
  · rename_i h
    refine ⟨rfl, rfl, ?_⟩
    intro k hk h8
    simp [h8]
  · exact ⟨rfl, rfl, fun _ _ _ => rfl⟩

theorem storeMsgs_lt (ms : List RxMsg) (i : Nat) (bufs : Vector CanfdFrame FramesLen) (j : Nat) (hj : j < 4) (h : j < i) :
    (storeMsgs ms i bufs)[j] = bufs[j] := by
  induction ms generalizing i bufs with
  | nil => rfl
  | cons m ms ih =>
    simp only [storeMsgs]
    split
    · rw [ih (i + 1) _ (by omega), Vector.getElem_set_ne _ _ (by omega)]
    · rfl

theorem storeMsgs_holds (ms : List RxMsg) (i : Nat) (bufs : Vector CanfdFrame FramesLen) (t : Nat) (ht : t < ms.length)
    (h : i + t < 4) : Holds (storeMsgs ms i bufs)[i + t] ms[t] := by
  induction ms generalizing i bufs t with
  | nil => simp at ht
  | cons m ms ih =>
    have hi : i < 4 := by omega
    simp only [storeMsgs, hi, dif_pos]
    cases t with
    | zero =>
      simp only [Nat.add_zero, List.getElem_cons_zero]
      rw [storeMsgs_lt _ _ _ _ hi (by omega), Vector.getElem_set_self]
      exact storeMsg_holds _ _
    | succ t =>
      have := ih (i + 1) (bufs.set i (storeMsg bufs[i] m)) t (by simpa using ht) (by omega)
      simp only [List.getElem_cons_succ]
      have e : i + (t + 1) = i + 1 + t := by omega
      simp only [e]
      exact this

/-- Sum of 32-bit counters in 64 bits. -/
def sum64 (l : List (BitVec 32)) : BitVec 64 := l.foldr (fun d a => d.setWidth 64 + a) 0

theorem sum64_append (a b : List (BitVec 32)) : sum64 (a ++ b) = sum64 a + sum64 b := by
  induction a with
  | nil => simp [sum64]
  | cons x xs ih =>
    simp only [sum64, List.cons_append, List.foldr_cons] at ih ⊢
    rw [ih, BitVec.add_assoc]

/-- The last timestamp, as the model computes it. -/
def lastStamp (t : TimePoint) (cs : List Cmsg) : TimePoint :=
  cs.foldl (fun t c => match c with
    | .timestamp sec usec => TimePoint.fromMicrosecond ((sec * 1000000#64 + usec).toNat : Int)
    | _ => t) t

theorem readCmsgs_eq (t : TimePoint) (s : Statistics) (cs : List Cmsg) :
    readCmsgs t s cs = (lastStamp t cs, { s with rx_dropped := s.rx_dropped + sum64 (dropsOf cs) }) := by
  induction cs generalizing t s with
  | nil =>
    have h : s.rx_dropped + sum64 [] = s.rx_dropped := BitVec.add_zero _
    simp only [readCmsgs, lastStamp, dropsOf, List.filterMap_nil, List.foldl_nil, h]
  | cons c cs ih =>
    cases c with
    | timestamp sec usec =>
      rw [readCmsgs, ih]
      simp only [lastStamp, dropsOf, List.foldl_cons, List.filterMap_cons]
    | rxqOvfl d =>
      rw [readCmsgs, ih]
      simp only [lastStamp, dropsOf, List.foldl_cons, List.filterMap_cons, sum64, List.foldr_cons, BitVec.add_assoc]
    | other => rw [readCmsgs, ih]; rfl

/-- Statistics after one message. -/
def statsAfter (s : Statistics) (m : RxMsg) : Statistics :=
  let s' := { s with rx_dropped := s.rx_dropped + sum64 (dropsOf m.cmsgs) }
  if IsErr m.frame.can_id then countErrors m.frame.can_id s' else s'

/-- What a delivered frame looks like, for a buffer `b`. -/
def Decoded (m : RxMsg) (f : FrameT) : Prop :=
  f.id = m.frame.can_id ∧ f.dlc = m.frame.len.toNat ∧ f.timestamp = lastStamp TimePoint.default m.cmsgs ∧
  ∀ k (h : k < 64), k < dlcToLength f.dlc → k < RxMsg.room m → f.data[k] = m.frame.data[k]

theorem readOne_ok (b : CanfdFrame) (m : RxMsg) (s : ReadState) (hb : Holds b m) (hn : s.out_frames_read < 4) :
    ∃ s', readOne b m.cmsgs s = .ok s' ∧ s'.stats = statsAfter s.stats m ∧
      (if Delivers m.frame.can_id then
        s'.out_frames_read = s.out_frames_read + 1 ∧
        (∀ j (hj : j < 4), j ≠ s.out_frames_read → s'.out_frames[j] = s.out_frames[j]) ∧
        ∃ f, s'.out_frames[s.out_frames_read] = f ∧ Decoded m f
       else s'.out_frames_read = s.out_frames_read ∧ s'.out_frames = s.out_frames) := by
  obtain ⟨hid, hlen, hdata⟩ := hb
  have hn' : s.out_frames_read < FramesLen := hn
  simp only [readOne, hn', dif_pos, readCmsgs_eq]
  by_cases he : IsErr b.can_id = true
  · have h1 := (err_flag_iff _).2 he
    have hd : Delivers m.frame.can_id = false := by
      rw [← hid]; simp only [IsErr] at he; simp only [Delivers, he, Bool.not_true, Bool.false_and]
    refine ⟨_, by rw [if_pos h1]; rfl, ?_, ?_⟩
    · rw [hid] at he; simp [statsAfter, he, hid]
    · simp [hd]
  · have h1 : ¬ (b.can_id &&& CAN_ERR_FLAG ≠ 0) := fun h => he ((err_flag_iff _).1 h)
    rw [if_neg h1]
    have he' : IsErr m.frame.can_id = false := by rw [← hid]; simpa using he
    by_cases hz : b.can_id &&& CAN_EFF_MASK ≠ 0
    · have hz' := (eff_mask_iff _).1 hz
      have hd : Delivers m.frame.can_id = true := by
        rw [← hid]; simp only [IsErr, Bool.not_eq_true] at he; simp only [Delivers, he]; simp [hz']
      have hl := dlcToLength_le b.len.toNat
      obtain ⟨v, hv, hvj⟩ := copyBytes_ok (m := 64) b.data.toList (dlcToLength b.len.toNat) 0
        (Vector.replicate 64 0) (by simp; omega) (by omega)
      obtain ⟨w, hw, hwj⟩ := copyBytes_ok (m := 64) v.toList 64 0
        (s.out_frames[s.out_frames_read].data) (by simp) (by simp)
      rw [if_pos hz]
      simp only [Frame.ofData, hv, Outcome.ok_bind, Outcome.pure_eq, Frame.assign, hw]
      refine ⟨_, rfl, ?_, ?_⟩
      · simp [statsAfter, he']
      · rw [if_pos hd]
        refine ⟨rfl, ?_, _, rfl, ?_⟩
        · intro j hj hne
          simp only
          rw [Vector.getElem_set_ne _ _ (by omega)]
        · simp only [Vector.getElem_set_self]
          refine ⟨hid, by simp only [hlen], rfl, ?_⟩
          intro k hk hkd hkr
          have e1 := hwj k hk
          have e2 := hvj k hk
          rw [if_pos (by omega)] at e1
          simp only at hkd
          rw [if_pos (by omega)] at e2
          simp only at e1 e2 ⊢
          rw [e1]
          have e3 := hdata k hk hkr
          simp only [List.getD_eq_getElem?_getD, Vector.getElem?_toList] at e2 ⊢
          rw [Vector.getElem?_eq_getElem hk, Option.getD_some, e2,
            Vector.getElem?_eq_getElem hk, Option.getD_some, e3]
    · have hz' : canId29 b.can_id = 0 := by
        apply Classical.byContradiction; intro h; exact hz ((eff_mask_iff _).2 h)
      have hd : Delivers m.frame.can_id = false := by rw [← hid]; simp [Delivers, hz']
      rw [if_neg hz]
      refine ⟨_, rfl, ?_, ?_⟩
      · simp [statsAfter, he']
      · simp [hd]

/-- The messages among those received that `read` delivers. -/
def delivered (ms : List RxMsg) : List RxMsg := ms.filter fun m => Delivers m.frame.can_id

theorem readLoop_ok (bufs : Vector CanfdFrame FramesLen) (ms : List RxMsg) (i : Nat) (s : ReadState)
    (hlen : i + ms.length ≤ 4) (hn : s.out_frames_read ≤ i)
    (hb : ∀ t (ht : t < ms.length), Holds (bufs[i + t]'(by show _ < 4; omega)) ms[t]) :
    ∃ s', readLoop bufs ms i s = .ok s' ∧ s'.stats = ms.foldl statsAfter s.stats ∧
      s'.out_frames_read = s.out_frames_read + (delivered ms).length ∧
      (∀ j (hj : j < 4), j < s.out_frames_read ∨ s'.out_frames_read ≤ j → s'.out_frames[j] = s.out_frames[j]) ∧
      ∀ t (ht : t < (delivered ms).length) (h4 : s.out_frames_read + t < 4),
        Decoded (delivered ms)[t] s'.out_frames[s.out_frames_read + t] := by
  induction ms generalizing i s with
  | nil => exact ⟨s, rfl, rfl, by simp [delivered], fun _ _ _ => rfl, by simp [delivered]⟩
  | cons m ms ih =>
    simp only [List.length_cons] at hlen
    have hi : i < 4 := by omega
    have hb0 : Holds bufs[i] m := hb 0 (by simp)
    obtain ⟨s1, h1, hst, hcase⟩ := readOne_ok bufs[i] m s hb0 (by omega)
    have hnext : s1.out_frames_read ≤ i + 1 := by
      split at hcase
      · omega
      · omega
    obtain ⟨s2, h2, h2st, h2n, h2u, h2d⟩ := ih (i + 1) s1 (by omega) hnext (by
      intro t ht
      have := hb (t + 1) (by simp; omega)
      have e : i + (t + 1) = i + 1 + t := by omega
      simpa only [e, List.getElem_cons_succ] using this)
    refine ⟨s2, ?_, ?_, ?_, ?_, ?_⟩
    · have hi' : i < FramesLen := hi
      simp only [readLoop, hi', dif_pos, h1, Outcome.ok_bind, h2]
    · rw [h2st, hst]; rfl
    · by_cases hd : Delivers m.frame.can_id = true
      · rw [if_pos hd] at hcase
        simp only [delivered, List.filter_cons, hd, if_true, List.length_cons] at h2n ⊢
        omega
      · rw [if_neg hd] at hcase
        simp only [delivered, List.filter_cons, hd] at h2n ⊢
        simp only [Bool.false_eq_true, if_false]
        omega
    · intro j hj hor
      by_cases hd : Delivers m.frame.can_id = true
      · rw [if_pos hd] at hcase
        rw [h2u j hj (by omega), hcase.2.1 j hj (by omega)]
      · rw [if_neg hd] at hcase
        rw [h2u j hj (by omega)]
        simp only [hcase.2]
    · intro t ht h4
      by_cases hd : Delivers m.frame.can_id = true
      · rw [if_pos hd] at hcase
        have hdel : delivered (m :: ms) = m :: delivered ms := by simp [delivered, hd]
        have ht' : t < (m :: delivered ms).length := by rw [← hdel]; exact ht
        have goal : Decoded ((m :: delivered ms)[t]) s2.out_frames[s.out_frames_read + t] := by
          cases t with
          | zero =>
            obtain ⟨f, hf, hdec⟩ := hcase.2.2
            have hu := h2u s.out_frames_read (by omega) (by omega)
            simp only [Nat.add_zero, List.getElem_cons_zero, hu, hf]
            exact hdec
          | succ t =>
            have hlt : t < (delivered ms).length := by simpa using ht'
            have := h2d t hlt (by omega)
            simp only [List.getElem_cons_succ]
            have e : s.out_frames_read + (t + 1) = s1.out_frames_read + t := by omega
            simp only [e]
            exact this
        simpa only [hdel] using goal
      · rw [if_neg hd] at hcase
        have hdel : delivered (m :: ms) = delivered ms := by simp [delivered, hd]
        have ht' : t < (delivered ms).length := by rw [← hdel]; exact ht
        have := h2d t ht' (by omega)
        simp only [hdel, ← hcase.1]
        exact this

/-- `read` with a valid kernel answer. -/
theorem read_ok (s : Iface) (out : Vector FrameT FramesLen) (ans : RecvAns) (hv : ValidRecv ans) :
    ∃ r, s.read out ans = .ok r ∧
      (ans.res ≤ 0 → r.read = 0 ∧ r.out_frames = out ∧ r.iface = s ∧
        r.result = if ans.res < 0 ∧ ans.errno = EAGAIN then .SuccessNothing else .UnknownInternalError) ∧
      (0 < ans.res → r.result = .Success ∧ r.read = (delivered ans.msgs).length ∧ ans.msgs.length ≤ 4 ∧
        (∀ j (hj : j < 4), r.read ≤ j → r.out_frames[j] = out[j]) ∧
        (∀ t (ht : t < (delivered ans.msgs).length) (h4 : t < 4), Decoded (delivered ans.msgs)[t] r.out_frames[t]) ∧
        r.iface.stats = { ans.msgs.foldl statsAfter s.stats with
          rx_total := (ans.msgs.foldl statsAfter s.stats).rx_total + BitVec.ofNat 64 r.read }) := by
  by_cases hr : ans.res ≤ 0
  · refine ⟨_, by simp only [Iface.read, hr, if_true]; rfl, ?_, ?_⟩
    · intro _; simp
    · intro h; omega
  · have hpos : 0 < ans.res := by omega
    have hl := hv.2 hpos
    have h4 : ans.msgs.length ≤ 4 := by have := hv.1; omega
    have htake : ans.msgs.take ans.res.toNat = ans.msgs := List.take_of_length_le (by omega)
    obtain ⟨s', h1, h2, h3, h5, h6⟩ := readLoop_ok (storeMsgs ans.msgs 0 s.bufs) ans.msgs 0
      { stats := s.stats, out_frames := out, out_frames_read := 0 } (by omega) (by simp)
      (by intro t ht; exact storeMsgs_holds ans.msgs 0 s.bufs t ht (by omega))
    simp only [Nat.zero_add] at h3 h5 h6
    have hdl : (delivered ans.msgs).length ≤ ans.msgs.length := List.length_filter_le _ _
    refine ⟨_, by simp only [Iface.read, hr, if_false, htake, h1, Outcome.ok_bind]; rfl, ?_, ?_⟩
    · intro h; omega
    · intro _
      refine ⟨rfl, h3, h4, fun j hj hle => h5 j hj (.inr hle), fun t ht h4' => h6 t ht h4', ?_⟩
      simp only [h2]
      congr 2
      apply BitVec.eq_of_toNat_eq
      simp only [BitVec.toNat_setWidth, BitVec.toNat_ofNat]
      omega

end Uavcan.SocketCan
