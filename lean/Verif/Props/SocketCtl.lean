import Verif.Lemmas.SocketCtl
import Verif.Props.SocketCan

/-!
# C69–C71: time stamps, drop counts and control data
-/

namespace Uavcan.SocketCan
open Can Time Spec

/-! ## C69 -/

/-- The message a batch brings in the abstract model has the frame of the message that arrived. -/
theorem rxMsgs_filter (o : SockOpts) (hs : Vector Hdr FramesLen) (as : List Arrival) (h4 : as.length ≤ 4) :
    ∃ cs : List (List Cmsg), cs.length = (as.filter fun a => Delivers a.frame.can_id).length ∧
      delivered (rxMsgs o hs as) =
        List.zipWith (fun (a : Arrival) c => (⟨a.classic, a.frame, c⟩ : RxMsg)) (as.filter fun a => Delivers a.frame.can_id) cs ∧
      ∀ j (h1 : j < cs.length) (h2 : j < (as.filter fun a => Delivers a.frame.can_id).length),
        ∃ len, cs[j] = seen o len (as.filter fun a => Delivers a.frame.can_id)[j] := by
  have hlen : as.length ≤ hs.toList.length := by rw [Vector.length_toList]; exact h4
  unfold rxMsgs delivered
  generalize hs.toList = l at hlen
  clear h4
  induction as generalizing l with
  | nil => exact ⟨[], rfl, rfl, fun j h1 => absurd h1 (by simp)⟩
  | cons a as ih =>
    cases l with
    | nil => simp at hlen
    | cons h l =>
      obtain ⟨cs, g1, g2, g3⟩ := ih l (by simpa using hlen)
      rw [List.zipWith_cons_cons]
      by_cases hd : Delivers a.frame.can_id = true
      · rw [List.filter_cons_of_pos (by exact hd), List.filter_cons_of_pos (by exact hd)]
        refine ⟨seen o h.controllen a :: cs, by simp [g1], by rw [g2, List.zipWith_cons_cons], ?_⟩
        intro j h1 h2
        cases j with
        | zero => exact ⟨h.controllen, rfl⟩
        | succ j => exact g3 j (by simpa using h1) (by simpa using h2)
      · rw [List.filter_cons_of_neg (by exact hd), List.filter_cons_of_neg (by exact hd)]
        exact ⟨cs, g1, g2, g3⟩

theorem stamp_seen (o : SockOpts) (len : Nat) (a : Arrival) (h : a.Sane) :
    (lastStamp TimePoint.default (seen o len a)).toMicrosecond = if o.ts then (a.micros : Int) else 0 := by
  rw [lastStamp_eq]
  · unfold seen
    cases o.ts with
    | true => rfl
    | false =>
      simp only [Bool.false_eq_true, if_false]
      split <;> rfl
  · intro c hc sec usec he
    subst he
    unfold seen at hc
    split at hc
    · rw [List.mem_singleton] at hc; cases hc; exact h
    · split at hc
      · rw [List.mem_singleton] at hc; cases hc
      · cases hc

/-- C69: whatever happened on an interface before, sends and receptions in any number and order, each frame of a batch
carries the time at which its own message arrived, if the kernel stamps messages, and 0 otherwise; the frames are those
of the messages to be delivered, in order. Nothing is read outside a control buffer. -/
theorem C69_times (o : SockOpts) (index : Nat) (name : String) (fd : Int)
    (junk : Vector (Vector Byte ControlSize) FramesLen) (ops : List KOp) (hv : ∀ op ∈ ops, ValidKOp op)
    (out : Vector FrameT FramesLen) (as : List Arrival) (h0 : 0 < as.length) (h4 : as.length ≤ 4)
    (hs : ∀ a ∈ as, a.Sane) :
    ∃ s r ds, krun o (CIface.mk' index name fd junk) ops = .ok s ∧ s.read out (arriveAns o s as) = .ok r ∧
      ds = as.filter (fun a => Delivers a.frame.can_id) ∧ r.result = .Success ∧ r.read = ds.length ∧
      ∀ j (h : j < 4) (hd : j < ds.length),
        r.out_frames[j].id = ds[j].frame.can_id ∧
        r.out_frames[j].timestamp.toMicrosecond = if o.ts then (ds[j].micros : Int) else 0 := by
  have hg := fresh_good o index name fd junk
  obtain ⟨i, hi, -⟩ := run_stats (Iface.mk' index name fd) _ (valid_absOps o (CIface.mk' index name fd junk).hdrs ops hv)
  have hk := krun_eq o (CIface.mk' index name fd junk) ops hg hv
  have hi' : (CIface.mk' index name fd junk).iface.run (absOps o (CIface.mk' index name fd junk).hdrs ops) = .ok i := hi
  rw [hi', Outcome.ok_bind] at hk
  refine ⟨{ iface := i, hdrs := hdrsRun o (CIface.mk' index name fd junk).hdrs ops }, ?_⟩
  rw [hk]
  have hgr := hdrsRun_good o _ ops hg hv
  generalize hdrsRun o (CIface.mk' index name fd junk).hdrs ops = hs' at hgr
  have hvr : ValidRecv { res := as.length, errno := 0, msgs := rxMsgs o hs' as } :=
    ⟨by show (as.length : Int) ≤ 4; omega, fun _ => by show ((rxMsgs o hs' as).length : Int) = as.length; rw [rxMsgs_length o hs' as h4]⟩
  obtain ⟨ri, hr, -, g⟩ := read_ok i out _ hvr
  obtain ⟨g1, g2, -, -, g5, -⟩ := g (by show (0 : Int) < as.length; omega)
  have href := read_refines o { iface := i, hdrs := hs' } out as h0 h4 hgr
  have hr' : (CIface.mk i hs').iface.read out { res := as.length, errno := 0, msgs := rxMsgs o hs' as } = .ok ri := hr
  rw [hr', Outcome.ok_bind] at href
  obtain ⟨cs, c1, c2, c3⟩ := rxMsgs_filter o hs' as h4
  have hlen : (delivered (rxMsgs o hs' as)).length = (as.filter fun a => Delivers a.frame.can_id).length := by
    rw [c2, List.length_zipWith]; omega
  refine ⟨_, _, rfl, href, rfl, g1, g2.trans hlen, ?_⟩
  intro j h hd
  obtain ⟨d1, -, d3, -⟩ := g5 j (by show j < (delivered (rxMsgs o hs' as)).length; omega) h
  obtain ⟨len, hc⟩ := c3 j (by omega) hd
  have hm : ∀ hh, (delivered (rxMsgs o hs' as))[j]'hh =
      (⟨(as.filter fun a => Delivers a.frame.can_id)[j].classic, (as.filter fun a => Delivers a.frame.can_id)[j].frame,
        seen o len (as.filter fun a => Delivers a.frame.can_id)[j]⟩ : RxMsg) := by
    intro hh
    simp only [c2, List.getElem_zipWith, hc]
  refine ⟨d1.trans (by rw [hm]), ?_⟩
  show (ri.out_frames[j]).timestamp.toMicrosecond = _
  rw [d3, hm]
  exact stamp_seen o len _ (hs _ (List.mem_filter.1 (List.getElem_mem hd)).1)

/-- C69: with time stamps on, an interface goes through any history exactly as `Model/SocketCan.lean` says (C36–C42) when
every message comes with one control message, its time of arrival. -/
theorem C69_history (o : SockOpts) (ho : o.ts = true) (index : Nat) (name : String) (fd : Int)
    (junk : Vector (Vector Byte ControlSize) FramesLen) (ops : List KOp) (hv : ∀ op ∈ ops, ValidKOp op) :
    ∃ s, krun o (CIface.mk' index name fd junk) ops = .ok s ∧
      (Iface.mk' index name fd).run (ops.map KOp.stamped) = .ok s.iface := by
  have hg := fresh_good o index name fd junk
  have hk := krun_eq o (CIface.mk' index name fd junk) ops hg hv
  rw [absOps_ts o _ ops ho hv] at hk
  obtain ⟨i, hi, -⟩ := run_stats (Iface.mk' index name fd) _ (valid_absOps o (CIface.mk' index name fd junk).hdrs ops hv)
  rw [absOps_ts o _ ops ho hv] at hi
  have hi' : (CIface.mk' index name fd junk).iface.run (ops.map KOp.stamped) = .ok i := hi
  rw [hi', Outcome.ok_bind] at hk
  exact ⟨_, hk, hi⟩

/-- C69: a read to which the kernel answers with an error, or with no message, changes nothing: neither the statistics nor the buffers nor what the caller's
frames hold; it says `SuccessNothing` exactly for `EAGAIN`. -/
theorem C69_no_messages (s : CIface) (out : Vector FrameT FramesLen) (ans : RawAns) (h : ans.res ≤ 0) :
    ∃ r, s.read out ans = .ok r ∧ r.out_frames = out ∧ r.read = 0 ∧ r.iface = s ∧
      (r.result = .SuccessNothing ↔ ans.res < 0 ∧ ans.errno = EAGAIN) ∧
      (r.result = .UnknownInternalError ↔ ¬ (ans.res < 0 ∧ ans.errno = EAGAIN)) := by
  refine ⟨_, by unfold CIface.read; rw [if_pos h], rfl, rfl, rfl, ?_, ?_⟩
  · simp only; split <;> simp_all
  · simp only; split <;> simp_all

/-- C69: what the memory of the control buffers held before the interface was made never shows: not in the state, and not
in what a read returns. -/
theorem C69_uninitialised (o : SockOpts) (index : Nat) (name : String) (fd : Int)
    (junk junk' : Vector (Vector Byte ControlSize) FramesLen) (ops : List KOp) (hv : ∀ op ∈ ops, ValidKOp op)
    (out : Vector FrameT FramesLen) (as : List Arrival) (h0 : 0 < as.length) (h4 : as.length ≤ 4) :
    ∃ s s' r r', krun o (CIface.mk' index name fd junk) ops = .ok s ∧ krun o (CIface.mk' index name fd junk') ops = .ok s' ∧
      s.read out (arriveAns o s as) = .ok r ∧ s'.read out (arriveAns o s' as) = .ok r' ∧
      s.iface = s'.iface ∧ r.result = r'.result ∧ r.read = r'.read ∧ r.out_frames = r'.out_frames := by
  have hg := fresh_good o index name fd junk
  have hg' := fresh_good o index name fd junk'
  have hk := krun_eq o (CIface.mk' index name fd junk) ops hg hv
  have hk' := krun_eq o (CIface.mk' index name fd junk') ops hg' hv
  have hsame : SameLen (CIface.mk' index name fd junk).hdrs (CIface.mk' index name fd junk').hdrs := by
    intro j hj; simp [CIface.mk']
  obtain ⟨e1, e2⟩ := absOps_congr o _ _ ops hv hsame
  obtain ⟨i, hi, -⟩ := run_stats (Iface.mk' index name fd) _ (valid_absOps o (CIface.mk' index name fd junk).hdrs ops hv)
  have hi1 : (CIface.mk' index name fd junk).iface.run (absOps o (CIface.mk' index name fd junk).hdrs ops) = .ok i := hi
  have hi2 : (CIface.mk' index name fd junk').iface.run (absOps o (CIface.mk' index name fd junk').hdrs ops) = .ok i := by
    rw [← e1]; exact hi
  rw [hi1, Outcome.ok_bind] at hk
  rw [hi2, Outcome.ok_bind] at hk'
  have hgr := hdrsRun_good o _ ops hg hv
  have hgr' := hdrsRun_good o _ ops hg' hv
  generalize hdrsRun o (CIface.mk' index name fd junk).hdrs ops = hs at *
  generalize hdrsRun o (CIface.mk' index name fd junk').hdrs ops = hs' at *
  have hr1 := read_refines o { iface := i, hdrs := hs } out as h0 h4 hgr
  have hr2 := read_refines o { iface := i, hdrs := hs' } out as h0 h4 hgr'
  have hvr : ValidRecv { res := as.length, errno := 0, msgs := rxMsgs o hs as } :=
    ⟨by show (as.length : Int) ≤ 4; omega, fun _ => by show ((rxMsgs o hs as).length : Int) = as.length; rw [rxMsgs_length o hs as h4]⟩
  obtain ⟨ri, hr, -⟩ := read_ok i out _ hvr
  have hra : (CIface.mk i hs).iface.read out { res := as.length, errno := 0, msgs := rxMsgs o hs as } = .ok ri := hr
  have hrb : (CIface.mk i hs').iface.read out { res := as.length, errno := 0, msgs := rxMsgs o hs' as } = .ok ri := by
    rw [← rxMsgs_congr o hs hs' as e2]; exact hr
  rw [hra, Outcome.ok_bind] at hr1
  rw [hrb, Outcome.ok_bind] at hr2
  exact ⟨_, _, _, _, hk, hk', hr1, hr2, rfl, rfl, rfl, rfl⟩

/-! ## C70 -/

/-- The kernel counts dropped frames: the numbers never fall. -/
def CountsUp (ops : List KOp) : Prop := (ops.flatMap arrivals).Pairwise fun a b => a.drops.toNat ≤ b.drops.toNat

/-- The property as stated in `properties.jsonl`: on a socket that reports dropped frames, `rx_dropped` is the number of
frames the kernel dropped, as of the last message. -/
def C70_Statement : Prop :=
  ∀ (o : SockOpts) (index : Nat) (name : String) (fd : Int) (junk : Vector (Vector Byte ControlSize) FramesLen)
    (ops : List KOp), o.ovfl = true → (∀ op ∈ ops, ValidKOp op) → CountsUp ops →
    ∃ s, krun o (CIface.mk' index name fd junk) ops = .ok s ∧ s.iface.stats.rx_dropped.toNat = droppedAsOf ops

theorem received_stamped_drops (ops : List KOp) :
    (received (ops.map KOp.stamped)).flatMap (fun m => dropsOf m.cmsgs) = [] := by
  rw [List.flatMap_eq_nil_iff]
  intro m hm
  simp only [received, List.mem_flatMap, List.mem_map] at hm
  obtain ⟨_, ⟨op, -, rfl⟩, hm⟩ := hm
  cases op with
  | write f n a => cases hm
  | fail out e => simp [KOp.stamped, opMsgs] at hm
  | arrive out as =>
    simp only [KOp.stamped, opMsgs] at hm
    split at hm
    · cases hm
    · have := List.mem_of_mem_take hm
      rw [List.mem_map] at this
      obtain ⟨a, -, rfl⟩ := this
      rfl

/-- C70, partial: with time stamps on, `rx_dropped` stays 0 whatever the kernel drops - the time stamp fills the control
buffer, and the drop count never gets in. So it is right exactly if nothing was dropped. -/
theorem C70_with_time_stamps_partial (o : SockOpts) (ho : o.ts = true) (index : Nat) (name : String) (fd : Int)
    (junk : Vector (Vector Byte ControlSize) FramesLen) (ops : List KOp) (hv : ∀ op ∈ ops, ValidKOp op) :
    ∃ s, krun o (CIface.mk' index name fd junk) ops = .ok s ∧ s.iface.stats.rx_dropped = 0 ∧
      (s.iface.stats.rx_dropped.toNat = droppedAsOf ops ↔ droppedAsOf ops = 0) := by
  obtain ⟨s, h1, h2⟩ := C69_history o ho index name fd junk ops hv
  have hva : ∀ op ∈ ops.map KOp.stamped, ValidOp op := by
    rw [← absOps_ts o (CIface.mk' index name fd junk).hdrs ops ho hv]
    exact valid_absOps o _ ops hv
  obtain ⟨i, g1, -, -, g4⟩ := run_stats (Iface.mk' index name fd) _ hva
  rw [h2] at g1
  injection g1 with g1
  have h0 : s.iface.stats.rx_dropped = 0 := by
    rw [g1, g4, received_stamped_drops]; rfl
  refine ⟨s, h1, h0, ?_⟩
  rw [h0]
  exact eq_comm

theorem dropped_sum (o : SockOpts) (ho : o.ts = false) (hov : o.ovfl = true) (hs : Vector Hdr FramesLen) (ops : List KOp)
    (hv : ∀ op ∈ ops, ValidKOp op) (hg : Good o hs) :
    sum64 ((received (absOps o hs ops)).flatMap fun m => dropsOf m.cmsgs) =
      sum64 (counted (hs[0]'(by decide)).controllen ((slotArrivals 0 ops).map Arrival.drops)) +
      sum64 (counted (hs[1]'(by decide)).controllen ((slotArrivals 1 ops).map Arrival.drops)) +
      sum64 (counted (hs[2]'(by decide)).controllen ((slotArrivals 2 ops).map Arrival.drops)) +
      sum64 (counted (hs[3]'(by decide)).controllen ((slotArrivals 3 ops).map Arrival.drops)) := by
  induction ops generalizing hs with
  | nil =>
    have : ∀ len, counted len [] = [] := by intro len; unfold counted; split <;> rfl
    simp only [absOps, received, slotArrivals, List.flatMap_nil, List.filterMap_nil, List.map_nil, this]
    decide
  | cons op ops ih =>
    have hvo := hv op (List.mem_cons_self ..)
    rw [slot_step o hs op ops ho hov hvo hg 0 (by decide), slot_step o hs op ops ho hov hvo hg 1 (by decide),
      slot_step o hs op ops ho hov hvo hg 2 (by decide), slot_step o hs op ops ho hov hvo hg 3 (by decide)]
    simp only [sum64_append]
    have hih := ih (hdrsOp o hs op) (fun p hp => hv p (List.mem_cons_of_mem _ hp)) (hdrsOp_good o hs op hg hvo)
    have hop : sum64 ((opMsgs (absOp o hs op)).flatMap fun m => dropsOf m.cmsgs) =
        sum64 (contrib o (hs[0]'(by decide)).controllen (arrivals op)[0]?) +
        sum64 (contrib o (hs[1]'(by decide)).controllen (arrivals op)[1]?) +
        sum64 (contrib o (hs[2]'(by decide)).controllen (arrivals op)[2]?) +
        sum64 (contrib o (hs[3]'(by decide)).controllen (arrivals op)[3]?) := by
      rw [← sum64_append, ← sum64_append, ← sum64_append, ← batch_drops o hs (arrivals op) (arrivals_le op hvo)]
      cases op with
      | write f n a => rfl
      | fail out e => rfl
      | arrive out as =>
        simp only [absOp, opMsgs, arrivals]
        have := hvo.1
        rw [if_neg (by omega), List.take_of_length_le (by rw [rxMsgs_length o hs as hvo.2]; omega)]
    rw [absOps]
    show sum64 ((List.flatMap opMsgs (absOp o hs op :: absOps o (hdrsOp o hs op) ops)).flatMap _) = _
    rw [List.flatMap_cons, List.flatMap_append, sum64_append, hop]
    have hih' : sum64 ((List.flatMap opMsgs (absOps o (hdrsOp o hs op) ops)).flatMap fun m => dropsOf m.cmsgs) = _ := hih
    rw [hih']
    ac_rfl

/-- C70, partial: with time stamps off, each of the four places of a batch adds up the (cumulative) counts it brings until the
first message without one, and nothing after that: from then on the header has no room for control data. Missing: neither
is the number of frames dropped. -/
theorem C70_without_time_stamps_partial (o : SockOpts) (ho : o.ts = false) (hov : o.ovfl = true) (index : Nat) (name : String)
    (fd : Int) (junk : Vector (Vector Byte ControlSize) FramesLen) (ops : List KOp) (hv : ∀ op ∈ ops, ValidKOp op) :
    ∃ s, krun o (CIface.mk' index name fd junk) ops = .ok s ∧
      s.iface.stats.rx_dropped =
        sum64 ((List.range 4).flatMap fun j => ((slotArrivals j ops).map Arrival.drops).takeWhile (· ≠ 0)) := by
  have hg := fresh_good o index name fd junk
  have hk := krun_eq o (CIface.mk' index name fd junk) ops hg hv
  obtain ⟨i, hi, -, -, g4⟩ := run_stats (Iface.mk' index name fd) _ (valid_absOps o (CIface.mk' index name fd junk).hdrs ops hv)
  have hi' : (CIface.mk' index name fd junk).iface.run (absOps o (CIface.mk' index name fd junk).hdrs ops) = .ok i := hi
  rw [hi', Outcome.ok_bind] at hk
  refine ⟨_, hk, ?_⟩
  show i.stats.rx_dropped = _
  rw [g4, dropped_sum o ho hov _ ops hv hg]
  have hlen : ∀ j (hj : j < FramesLen), (CIface.mk' index name fd junk).hdrs[j].controllen = 32 := by
    intro j hj; simp [CIface.mk']; rfl
  have hc : ∀ l, counted 32 l = l.takeWhile (· ≠ 0) := fun l => if_pos (by omega)
  rw [hlen 0 (by decide), hlen 1 (by decide), hlen 2 (by decide), hlen 3 (by decide)]
  simp only [hc]
  have hr : List.range 4 = [0, 1, 2, 3] := rfl
  rw [hr]
  simp only [List.flatMap_cons, List.flatMap_nil, List.append_nil, sum64_append]
  have h0 : (Iface.mk' index name fd).stats.rx_dropped = 0#64 := rfl
  rw [h0, BitVec.zero_add]
  ac_rfl

/-- The message used below. -/
def dropMsg (d : BitVec 32) : Arrival := ⟨true, ⟨0x80000001#32, 0, 0, 0, 0, Vector.replicate 64 0⟩, 1000, 5, d⟩

/-- C70 is false of the code: one message arrives, one frame was dropped before it, and `rx_dropped` is 0 (time stamps on);
with time stamps off, two messages in the same place with the count 1 give 2, and a count after a message without one is
lost. -/
theorem C70_full_statement_fails : ¬ C70_Statement ∧
    (∃ s, krun ⟨false, true⟩ (CIface.mk' 0 "vcan0" 3 (Vector.replicate 4 (Vector.replicate 32 0)))
      [.arrive (Vector.replicate 4 Frame.default) [dropMsg 1], .arrive (Vector.replicate 4 Frame.default) [dropMsg 1]] = .ok s ∧
      s.iface.stats.rx_dropped = 2) ∧
    (∃ s, krun ⟨false, true⟩ (CIface.mk' 0 "vcan0" 3 (Vector.replicate 4 (Vector.replicate 32 0)))
      [.arrive (Vector.replicate 4 Frame.default) [dropMsg 0], .arrive (Vector.replicate 4 Frame.default) [dropMsg 1]] = .ok s ∧
      s.iface.stats.rx_dropped = 0) := by
  have hv : ∀ d e, ∀ op ∈ [KOp.arrive (Vector.replicate 4 Frame.default) [dropMsg d],
      .arrive (Vector.replicate 4 Frame.default) [dropMsg e]], ValidKOp op := by
    intro d e op hop
    simp only [List.mem_cons, List.not_mem_nil, or_false] at hop
    rcases hop with rfl | rfl <;> exact ⟨Nat.one_pos, by show 1 ≤ 4; omega⟩
  refine ⟨?_, ?_, ?_⟩
  · intro h
    have hv1 : ∀ op ∈ [KOp.arrive (Vector.replicate 4 Frame.default) [dropMsg 1]], ValidKOp op := by
      intro op hop
      rw [List.mem_singleton] at hop
      subst hop
      exact ⟨Nat.one_pos, by show 1 ≤ 4; omega⟩
    obtain ⟨s, h1, h2⟩ := h ⟨true, true⟩ 0 "vcan0" 3 (Vector.replicate 4 (Vector.replicate 32 0)) _ rfl hv1
      (by simp [CountsUp, arrivals])
    obtain ⟨s', g1, -, g3⟩ := C70_with_time_stamps_partial ⟨true, true⟩ rfl 0 "vcan0" 3
      (Vector.replicate 4 (Vector.replicate 32 0)) _ hv1
    rw [h1] at g1
    injection g1 with g1
    subst g1
    have := g3.1 h2
    revert this
    decide
  · obtain ⟨s, h1, h2⟩ := C70_without_time_stamps_partial ⟨false, true⟩ rfl rfl 0 "vcan0" 3
      (Vector.replicate 4 (Vector.replicate 32 0)) _ (hv 1 1)
    exact ⟨s, h1, h2.trans (by decide)⟩
  · obtain ⟨s, h1, h2⟩ := C70_without_time_stamps_partial ⟨false, true⟩ rfl rfl 0 "vcan0" 3
      (Vector.replicate 4 (Vector.replicate 32 0)) _ (hv 0 1)
    exact ⟨s, h1, h2.trans (by decide)⟩

/-! ## C71 -/

/-- The property as stated in `properties.jsonl`: a `write` hands the kernel frames and nothing else - no control data. -/
def C71_Statement : Prop :=
  ∀ (o : SockOpts) (index : Nat) (name : String) (fd : Int) (junk : Vector (Vector Byte ControlSize) FramesLen)
    (ops : List KOp) (frames : Vector FrameT FramesLen) (n : Nat) (ans : SysAns), (∀ op ∈ ops, ValidKOp op) → n ≤ 4 →
    ∃ s w, krun o (CIface.mk' index name fd junk) ops = .ok s ∧ s.write frames n ans = .ok w ∧ ∀ c ∈ w.control, c = []

theorem write_total (s : Iface) (frames : Vector FrameT FramesLen) (n : Nat) (ans : SysAns) (h4 : n ≤ 4) :
    ∃ r, s.write frames n ans = .ok r := by
  by_cases h0 : n = 0
  · exact ⟨_, by rw [Iface.write, if_pos h0]⟩
  · obtain ⟨b, -, -, hw⟩ := write_ok s frames n ans (by omega) h4
    exact ⟨_, hw⟩

/-- C71, partial: what is handed over with the `j`-th frame, with time stamps on. If no message ever came in that place of a
batch, it is what the memory held before the interface was made; otherwise it is the time stamp of the last one. -/
theorem C71_control_partial (o : SockOpts) (ho : o.ts = true) (index : Nat) (name : String) (fd : Int)
    (junk : Vector (Vector Byte ControlSize) FramesLen) (ops : List KOp) (hv : ∀ op ∈ ops, ValidKOp op)
    (frames : Vector FrameT FramesLen) (n : Nat) (ans : SysAns) (h4 : n ≤ 4) :
    ∃ s w, krun o (CIface.mk' index name fd junk) ops = .ok s ∧ s.write frames n ans = .ok w ∧
      s.iface.write frames n ans = .ok w.out ∧ w.control.length = n ∧
      ∀ j (hj : j < 4) (hc : j < w.control.length),
        (slotArrivals j ops = [] → w.control[j] = junk[j].toList) ∧
        (∀ a, (slotArrivals j ops).getLast? = some a → IsStampOf a w.control[j] ∧ Refused w.control[j]) := by
  have hg := fresh_good o index name fd junk
  have hk := krun_eq o (CIface.mk' index name fd junk) ops hg hv
  obtain ⟨i, hi, -⟩ := run_stats (Iface.mk' index name fd) _ (valid_absOps o (CIface.mk' index name fd junk).hdrs ops hv)
  have hi' : (CIface.mk' index name fd junk).iface.run (absOps o (CIface.mk' index name fd junk).hdrs ops) = .ok i := hi
  rw [hi', Outcome.ok_bind] at hk
  obtain ⟨r, hr⟩ := write_total i frames n ans h4
  refine ⟨_, _, hk, by simp only [CIface.write, hr, Outcome.ok_bind]; rfl, hr, ?_, ?_⟩
  · simp only []
    split
    · rename_i h; simp [h]
    · rw [List.length_map, List.length_take, Vector.length_toList]
      show min n 4 = n; omega
  · intro j hj hc
    have hc' : j < (if n = 0 then [] else List.map Hdr.data
        (List.take n (hdrsRun o (CIface.mk' index name fd junk).hdrs ops).toList)).length := hc
    have hn : n ≠ 0 := by
      intro h; rw [if_pos h] at hc'; simp at hc'
    have hget : ∀ h, (if n = 0 then [] else List.map Hdr.data
        (List.take n (hdrsRun o (CIface.mk' index name fd junk).hdrs ops).toList))[j]'h =
        (hdrsRun o (CIface.mk' index name fd junk).hdrs ops)[j].data := by
      intro h
      simp [hn]
    have hdata := hdrsRun_ts o (CIface.mk' index name fd junk).hdrs ops ho hg hv j hj
    refine ⟨?_, ?_⟩
    · intro he
      refine (hget hc').trans (hdata.trans ?_)
      rw [he]
      show Hdr.data _ = _
      simp only [CIface.mk', Vector.getElem_map, Hdr.data]
      exact List.take_of_length_le (by rw [Vector.length_toList]; exact Nat.le_refl _)
    · intro a ha
      have he := (hget hc').trans hdata
      rw [ha] at he
      have he' : _ = stampBytes a := he
      have hst := stampBytes_isStamp a
      rw [← he'] at hst
      exact ⟨hst, isStamp_refused a _ hst⟩

/-- C71, partial: a kernel which checks control data therefore sends nothing once something was received: it refuses the first
message (`EINVAL`), and `write` reports `Failure`. -/
theorem C71_refused_partial (o : SockOpts) (ho : o.ts = true) (index : Nat) (name : String) (fd : Int)
    (junk : Vector (Vector Byte ControlSize) FramesLen) (ops : List KOp) (hv : ∀ op ∈ ops, ValidKOp op)
    (hr : ∃ out as, KOp.arrive out as ∈ ops) (frames : Vector FrameT FramesLen) (n : Nat) (ans : SysAns) (h0 : 0 < n)
    (h4 : n ≤ 4) (hans : ∀ s w, krun o (CIface.mk' index name fd junk) ops = .ok s → s.write frames n ans = .ok w →
      Checks w.control ans) :
    ∃ s w, krun o (CIface.mk' index name fd junk) ops = .ok s ∧ s.write frames n ans = .ok w ∧
      w.out.result = .Failure ∧ w.out.written = 0 := by
  obtain ⟨s, w, h1, h2, h3, h5, h6⟩ := C71_control_partial o ho index name fd junk ops hv frames n ans h4
  have hne : slotArrivals 0 ops ≠ [] := by
    obtain ⟨out, as, hm⟩ := hr
    have hp : 0 < as.length := (hv _ hm).1
    have : as[0] ∈ slotArrivals 0 ops := by
      rw [slotArrivals, List.mem_filterMap]
      exact ⟨_, hm, List.getElem?_eq_getElem hp⟩
    intro he
    rw [he] at this
    cases this
  have hlast : (slotArrivals 0 ops).getLast? = some ((slotArrivals 0 ops).getLast hne) := List.getLast?_eq_some_getLast hne
  have href := ((h6 0 (by omega) (by omega)).2 _ hlast).2
  have ha : ans = { res := -1, errno := 22 } := by
    cases hc : w.control with
    | nil => rw [hc] at h5; simp at h5; omega
    | cons c cs =>
      refine hans s w h1 h2 c cs hc ?_
      simp only [hc, List.getElem_cons_zero] at href
      exact href
  subst ha
  obtain ⟨b, -, -, hw⟩ := write_ok s.iface frames n { res := -1, errno := 22 } h0 h4
  rw [hw] at h3
  injection h3 with h3
  refine ⟨s, w, h1, h2, ?_, ?_⟩ <;> rw [← h3] <;> rfl

/-- C71 is false of the code: a fresh interface hands over 32 bytes of memory it never set. -/
theorem C71_full_statement_fails : ¬ C71_Statement := by
  intro h
  obtain ⟨s, w, h1, h2, h3⟩ := h ⟨true, true⟩ 0 "vcan0" 3 (Vector.replicate 4 (Vector.replicate 32 7)) []
    (Vector.replicate 4 Frame.default) 1 ⟨1, 0⟩ (by intro op ho; cases ho) (by omega)
  obtain ⟨s', w', g1, g2, -, g4, g5⟩ := C71_control_partial ⟨true, true⟩ rfl 0 "vcan0" 3
    (Vector.replicate 4 (Vector.replicate 32 7)) [] (by intro op ho; cases ho) (Vector.replicate 4 Frame.default) 1 ⟨1, 0⟩
    (by omega)
  rw [h1] at g1
  injection g1 with g1
  subst g1
  rw [h2] at g2
  injection g2 with g2
  subst g2
  have e1 := (g5 0 (by omega) (by omega)).1 rfl
  have e2 := h3 _ (List.getElem_mem (by omega : 0 < w.control.length))
  rw [e2] at e1
  have e3 := congrArg List.length e1
  rw [Vector.length_toList] at e3
  exact absurd e3 (by decide)

/-! ## Examples -/

/-- An interface that sent, received two messages, failed to receive and sent again. -/
def exampleOps : List KOp :=
  [.write (Vector.replicate 4 Frame.default) 2 ⟨2, 0⟩,
   .arrive (Vector.replicate 4 Frame.default) [dropMsg 0, dropMsg 1],
   .fail (Vector.replicate 4 Frame.default) 11,
   .write (Vector.replicate 4 Frame.default) 1 ⟨-1, 22⟩]

theorem exampleOps_valid : ∀ op ∈ exampleOps, ValidKOp op := by
  intro op hop
  simp only [exampleOps, List.mem_cons, List.not_mem_nil, or_false] at hop
  rcases hop with rfl | rfl | rfl | rfl
  · exact ⟨by omega, .inr ⟨by decide, by decide⟩⟩
  · exact ⟨by simp, by simp⟩
  · trivial
  · exact ⟨by omega, .inl rfl⟩

/-- C69: the second of two messages is delivered with its own time, 1000.000005 s. -/
example : (dropMsg 1).Sane ∧ (dropMsg 1).micros = 1000000005 ∧ Delivers (dropMsg 1).frame.can_id = true ∧
    (slotArrivals 1 exampleOps).getLast? = some (dropMsg 1) ∧ slotArrivals 2 exampleOps = [] := by
  refine ⟨⟨by decide, by decide⟩, by decide, by decide, rfl, rfl⟩

/-- C70: one frame was dropped, and `rx_dropped` is 0. -/
example : ∃ s, krun ⟨true, true⟩ (CIface.mk' 0 "vcan0" 3 (Vector.replicate 4 (Vector.replicate 32 0))) exampleOps = .ok s ∧
    s.iface.stats.rx_dropped = 0 ∧ droppedAsOf exampleOps = 1 := by
  obtain ⟨s, h1, h2, -⟩ := C70_with_time_stamps_partial ⟨true, true⟩ rfl 0 "vcan0" 3
    (Vector.replicate 4 (Vector.replicate 32 0)) exampleOps exampleOps_valid
  exact ⟨s, h1, h2, rfl⟩

/-- C71: after this history the kernel refuses a frame, and `write` reports a failure. -/
example : ∃ s w, krun ⟨true, true⟩ (CIface.mk' 0 "vcan0" 3 (Vector.replicate 4 (Vector.replicate 32 0))) exampleOps = .ok s ∧
    s.write (Vector.replicate 4 Frame.default) 1 ⟨-1, 22⟩ = .ok w ∧ w.out.result = .Failure ∧ w.out.written = 0 :=
  C71_refused_partial ⟨true, true⟩ rfl 0 "vcan0" 3 (Vector.replicate 4 (Vector.replicate 32 0)) exampleOps exampleOps_valid
    ⟨Vector.replicate 4 Frame.default, [dropMsg 0, dropMsg 1], by simp [exampleOps]⟩ (Vector.replicate 4 Frame.default) 1 _
    (by omega) (by omega) (fun _ _ _ _ _ _ _ _ => rfl)

/-- C71: zeroed memory is refused as well (the length of the first header is 0). -/
example : Refused (List.replicate 32 0) := by
  refine ⟨by simp, .inl (by decide)⟩

end Uavcan.SocketCan
