import Verif.Lemmas.SocketCan
import Verif.Model.SocketGroup

/-!
# C36–C42: the SocketCAN interface
-/

namespace Uavcan.SocketCan
open Can Time Spec

/-! ## C36 -/

/-- The property as stated in `properties.jsonl`: every call with a group, index, frames and valid kernel answer. -/
def C36_Statement : Prop :=
  ∀ (g : Group) (index n out : Nat) (frames : Vector FrameT FramesLen) (ans : SysAns), ValidSend n ans →
    ∃ r, g.write index frames n out ans = .ok r ∧
      (r.result = .Success ↔ queued ans = n) ∧
      (r.result = .SuccessPartial ↔ 0 < queued ans ∧ queued ans < n) ∧
      ((r.result = .BufferFull ∨ r.result = .Failure) ↔ queued ans = 0) ∧
      r.written = queued ans

/-- C36 is false of the code: for a bad index `out_frames_written` keeps its old value. -/
theorem C36_full_statement_fails : ¬ C36_Statement := by
  intro h
  obtain ⟨r, h1, -, -, -, h5⟩ := h ⟨[]⟩ 0 1 7 (Vector.replicate 4 Frame.default) ⟨-1, 0⟩ (.inl rfl)
  simp only [Group.write, List.getElem?_nil, Outcome.ok.injEq] at h1
  subst h1
  simp [queued] at h5

/-- C36, partial: for an existing interface and one to four frames. The result says exactly how many frames were queued,
and so does `out_frames_written`; a failure is `BufferFull` exactly if the kernel said `ENOBUFS` or `EAGAIN`; only the
addressed interface is touched. Missing: the cases of the next three theorems. -/
theorem C36_write_result_partial (g : Group) (index n out : Nat) (frames : Vector FrameT FramesLen) (ans : SysAns)
    (hi : index < g.interfaces.length) (h0 : 0 < n) (h4 : n ≤ 4) (hv : ValidSend n ans) :
    ∃ r, g.write index frames n out ans = .ok r ∧
      (r.result = .Success ↔ queued ans = n) ∧
      (r.result = .SuccessPartial ↔ 0 < queued ans ∧ queued ans < n) ∧
      ((r.result = .BufferFull ∨ r.result = .Failure) ↔ queued ans = 0) ∧
      (r.result = .BufferFull ↔ queued ans = 0 ∧ (ans.errno = ENOBUFS ∨ ans.errno = EAGAIN)) ∧
      r.written = queued ans ∧ r.submitted.length = n ∧
      r.group.interfaces.length = g.interfaces.length ∧
      ∀ j, j ≠ index → r.group.interfaces[j]? = g.interfaces[j]? := by
  obtain ⟨bufs', -, -, hw⟩ := write_ok g.interfaces[index] frames n ans h0 h4
  refine ⟨_, by simp only [Group.write, List.getElem?_eq_getElem hi, hw, Outcome.ok_bind]; rfl, ?_⟩
  have hq : queued ans = if 0 < ans.res then ans.res.toNat else 0 := rfl
  have hres : (ans.res ≤ 0 ∧ queued ans = 0) ∨ (¬ ans.res ≤ 0 ∧ ans.res.toNat = queued ans ∧ 0 < queued ans ∧ queued ans ≤ n) := by
    rw [hq]; rcases hv with hv | hv <;> split <;> omega
  refine ⟨?_, ?_, ?_, ?_, ?_⟩
  iterate 4
    rcases hres with ⟨h, hh⟩ | ⟨h, hh, hh', hh''⟩
    · simp only [h, hh, if_true]
      by_cases he : ans.errno = ENOBUFS ∨ ans.errno = EAGAIN
      · simp only [he, if_true]; grind
      · simp only [he, if_false]; grind
    · simp only [h, hh, if_false]
      by_cases he : queued ans < n
      · simp only [he, if_true]; grind
      · simp only [he, if_false]; grind
  · refine ⟨rfl, ?_, by simp, ?_⟩
    · simp [FramesLen]; omega
    · intro j hj
      simp only [List.getElem?_set_ne (Ne.symm hj)]

/-- C36, what happens otherwise: a bad index is rejected without touching anything (including `out_frames_written`);
zero frames are rejected with `out_frames_written` = 0; more than four frames leave the arrays. -/
theorem C36_rejected_partial (g : Group) (index n out : Nat) (frames : Vector FrameT FramesLen) (ans : SysAns) :
    (g.interfaces.length ≤ index → g.write index frames n out ans = .ok ⟨.BadArgument, out, g, []⟩) ∧
    (index < g.interfaces.length → n = 0 → g.write index frames n out ans = .ok ⟨.BadArgument, 0, g, []⟩) ∧
    (index < g.interfaces.length → 4 < n → g.write index frames n out ans = .ub .outOfBounds) := by
  refine ⟨?_, ?_, ?_⟩
  · intro h; simp [Group.write, List.getElem?_eq_none h]
  · intro h h0
    subst h0
    simp [Group.write, List.getElem?_eq_getElem h, Iface.write]
  · intro h h4
    have hn : n ≠ 0 := by omega
    simp [Group.write, List.getElem?_eq_getElem h, Iface.write, hn, writeLoop_ub frames n 0 _ (by omega) (by omega)]

/-- Two frames on a fresh interface, of which the kernel takes one. -/
example : ((⟨[Iface.mk' 0 "vcan0" 3]⟩ : Group).write 0 (Vector.replicate 4 Frame.default) 2 9 ⟨1, 0⟩).bind
    (fun r => .ok (r.result, r.written)) = .ok (.SuccessPartial, 1) := by decide +kernel
example : ValidSend 2 ⟨1, 0⟩ ∧ queued ⟨1, 0⟩ = 1 := ⟨.inr ⟨by decide, by decide⟩, by decide⟩

/-! ## C37 -/

/-- A SocketCAN frame is what the library's frame asks for. -/
def Transmits (f : FrameT) (w : CanfdFrame) : Prop :=
  IsExtData w.can_id = true ∧ canId29 w.can_id = canId29 f.id ∧
  w.len.toNat = f.getDataLength ∧
  ∀ k (h : k < 64), k < f.getDataLength → w.data[k] = f.data[k]

/-- The property as stated in `properties.jsonl`. -/
def C37_Statement : Prop :=
  ∀ (s : Iface) (n : Nat) (frames : Vector FrameT FramesLen) (ans : SysAns), 0 < n → n ≤ 4 →
    ∃ r, s.write frames n ans = .ok r ∧ r.submitted.length = n ∧
      ∀ j (hj : j < 4) (hs : j < r.submitted.length), Transmits frames[j] r.submitted[j]

/-- C37, partial: whatever the interface did before, every frame submitted to the kernel is an extended data frame with the
right identifier and the right payload bytes in front, and its length is right exactly when the DLC is at most 8.
Missing: the length of longer frames - the code sends the DLC in place of the length. -/
theorem C37_wire_partial (s : Iface) (n : Nat) (frames : Vector FrameT FramesLen) (ans : SysAns)
    (h0 : 0 < n) (h4 : n ≤ 4) (hd : ∀ j (hj : j < 4), j < n → frames[j].dlc < 256) :
    ∃ r, s.write frames n ans = .ok r ∧ r.submitted.length = n ∧
      ∀ j (hj : j < 4) (hs : j < r.submitted.length),
        IsExtData r.submitted[j].can_id = true ∧
        canId29 r.submitted[j].can_id = canId29 frames[j].id ∧
        (∀ k (h : k < 64), k < frames[j].getDataLength → r.submitted[j].data[k] = frames[j].data[k]) ∧
        r.submitted[j].len.toNat = frames[j].dlc ∧
        (Transmits frames[j] r.submitted[j] ↔ frames[j].dlc ≤ 8) := by
  obtain ⟨bufs', -, hb, hw⟩ := write_ok s frames n ans h0 h4
  refine ⟨_, hw, by simp [FramesLen]; omega, ?_⟩
  intro j hj hs
  have hjn : j < n := by simp at hs; omega
  have := hb j hj
  rw [if_pos hjn] at this
  obtain ⟨f1, f2, -, -, -, f6⟩ := this
  have he : (bufs'.toList.take n)[j] = bufs'[j] := by simp
  simp only [he]
  have hid := txId_props frames[j].id
  rw [f1]
  have hlen : bufs'[j].len.toNat = frames[j].dlc := by
    rw [f2]; simp only [BitVec.toNat_ofNat]; have := hd j hj hjn; omega
  have hdata : ∀ k (h : k < 64), k < frames[j].getDataLength → bufs'[j].data[k] = frames[j].data[k] := by
    intro k hk hkl
    rw [f6 k hk]
    exact if_pos hkl
  refine ⟨hid.1, hid.2, hdata, hlen, ?_⟩
  simp only [Transmits, f1, hid.1, hid.2, hlen, true_and]
  constructor
  · rintro ⟨h, -⟩
    simp only [Frame.getDataLength] at h
    by_cases h16 : frames[j].dlc < 16
    · have : ∀ d : Fin 16, d.val = dlcToLength d.val → d.val ≤ 8 := by decide
      exact this ⟨_, h16⟩ h
    · rw [dlcToLength_ge (by omega)] at h; omega
  · intro h8
    have : ∀ d : Fin 9, d.val = dlcToLength d.val := by decide
    exact ⟨this ⟨_, Nat.lt_succ_of_le h8⟩, hdata⟩

/-- C37, partial: the same for the group: the frames given to the kernel for an existing interface are those its `write`
gives, on its own descriptor. -/
theorem C37_group_partial (g : Group) (index n out : Nat) (frames : Vector FrameT FramesLen) (ans : SysAns) (s : Iface)
    (hs : g.interfaces[index]? = some s) (h0 : 0 < n) (h4 : n ≤ 4) :
    ∃ r ri, g.write index frames n out ans = .ok r ∧ s.write frames n ans = .ok ri ∧ r.submitted = ri.submitted ∧
      r.result = ri.result ∧ r.written = ri.written ∧ r.group.interfaces[index]? = some ri.iface ∧ ri.iface.fd = s.fd := by
  obtain ⟨bufs', -, -, hw⟩ := write_ok s frames n ans h0 h4
  have hi : index < g.interfaces.length := by
    rcases Nat.lt_or_ge index g.interfaces.length with h | h
    · exact h
    · rw [List.getElem?_eq_none h] at hs; cases hs
  exact ⟨_, _, by simp only [Group.write, hs, hw, Outcome.ok_bind]; rfl, hw, rfl, rfl, rfl, by simp [hi], rfl⟩

/-- C37 is false of the code: a frame of 12 bytes (DLC 9) goes out with 9 bytes. -/
theorem C37_full_statement_fails : ¬ C37_Statement := by
  intro h
  let f : FrameT := { Frame.default with dlc := 9 }
  obtain ⟨r, h1, h2, h3⟩ := h (Iface.mk' 0 "vcan0" 3) 1 (Vector.replicate 4 f) ⟨1, 0⟩ (by decide) (by decide)
  obtain ⟨r', g1, g2, g3⟩ := C37_wire_partial (Iface.mk' 0 "vcan0" 3) 1 (Vector.replicate 4 f) ⟨1, 0⟩
    (by decide) (by decide) (by intro j hj _; simp [f])
  rw [h1] at g1
  injection g1 with g1
  subst g1
  have := (g3 0 (by decide) (by omega)).2.2.2.2.1 (h3 0 (by decide) (by omega))
  simp [f] at this

/-- C37, partial: the rest of what is submitted depends on earlier traffic. The bytes behind the payload and the CAN FD flags
are those of the frame last held by the buffer, whether sent or received. -/
theorem C37_stale_partial (s : Iface) (n : Nat) (frames : Vector FrameT FramesLen) (ans : SysAns)
    (h0 : 0 < n) (h4 : n ≤ 4) :
    ∃ r, s.write frames n ans = .ok r ∧
      ∀ j (hj : j < 4) (hs : j < r.submitted.length),
        r.submitted[j].flags = s.bufs[j].flags ∧
        ∀ k (h : k < 64), frames[j].getDataLength ≤ k → r.submitted[j].data[k] = s.bufs[j].data[k] := by
  obtain ⟨bufs', -, hb, hw⟩ := write_ok s frames n ans h0 h4
  refine ⟨_, hw, ?_⟩
  intro j hj hs
  have hjn : j < n := by simp at hs; omega
  have := hb j hj
  rw [if_pos hjn] at this
  obtain ⟨-, -, f3, -, -, f6⟩ := this
  have he : (bufs'.toList.take n)[j] = bufs'[j] := by simp
  simp only [he]
  refine ⟨f3, ?_⟩
  intro k hk hkl
  rw [f6 k hk]
  exact if_neg (by simp only [Frame.getDataLength] at hkl; omega)

example : ∃ f : FrameT, f.dlc = 8 ∧ f.id = 0xFFFFFFFF#32 := ⟨{ Frame.default with dlc := 8, id := 0xFFFFFFFF#32 }, rfl, rfl⟩

/-! ## C38 -/

/-- C38: `read` reports at most four frames; exactly the messages with a deliverable identifier (see C39) are
delivered, in the order received, in the first slots; the other slots are untouched; `rx_total` grows by
the number reported. Where the kernel reports an error or nothing, nothing changes. -/
theorem C38_read_order (s : Iface) (out : Vector FrameT FramesLen) (ans : RecvAns) (hv : ValidRecv ans) :
    ∃ r, s.read out ans = .ok r ∧ r.read ≤ 4 ∧
      (∀ j (hj : j < 4), r.read ≤ j → r.out_frames[j] = out[j]) ∧
      r.iface.stats.rx_total = s.stats.rx_total + BitVec.ofNat 64 r.read ∧
      (0 < ans.res → r.result = .Success ∧
        ∃ ms : List RxMsg, ms = ans.msgs.filter (fun m => Delivers m.frame.can_id) ∧ r.read = ms.length ∧
          ∀ j (hj : j < 4) (hm : j < ms.length),
            r.out_frames[j].id = ms[j].frame.can_id ∧ r.out_frames[j].dlc = ms[j].frame.len.toNat ∧
            ∀ k (hk : k < 64), k < r.out_frames[j].getDataLength → k < RxMsg.room ms[j] →
              r.out_frames[j].data[k] = ms[j].frame.data[k]) ∧
      (ans.res ≤ 0 → r.read = 0 ∧ r.iface = s ∧
        (r.result = .SuccessNothing ↔ ans.res < 0 ∧ ans.errno = EAGAIN) ∧
        (r.result = .UnknownInternalError ↔ ¬ (ans.res < 0 ∧ ans.errno = EAGAIN))) := by
  obtain ⟨r, h1, h2, h3⟩ := read_ok s out ans hv
  refine ⟨r, h1, ?_⟩
  have hstat : ∀ (ms : List RxMsg) (st : Statistics), (ms.foldl statsAfter st).rx_total = st.rx_total := by
    intro ms
    induction ms with
    | nil => intro st; rfl
    | cons m ms ih =>
      intro st
      rw [List.foldl_cons, ih]
      simp only [statsAfter]
      split <;> rfl
  by_cases hr : ans.res ≤ 0
  · obtain ⟨a, b, c, d⟩ := h2 hr
    refine ⟨by omega, ?_, ?_, fun h => by omega, fun _ => ⟨a, c, ?_, ?_⟩⟩
    · intro j hj _; rw [b]
    · rw [a, c]; simp
    · rw [d]; split <;> simp_all
    · rw [d]; split <;> simp_all
  · obtain ⟨a, b, c, d, e, f⟩ := h3 (by omega)
    have hdl : (delivered ans.msgs).length ≤ ans.msgs.length := List.length_filter_le _ _
    refine ⟨by omega, d, ?_, fun _ => ⟨a, delivered ans.msgs, rfl, b, ?_⟩, fun h => by omega⟩
    · rw [f]; simp only [hstat]
    · intro j hj hm
      obtain ⟨x1, x2, -, x4⟩ := e j hm hj
      exact ⟨x1, x2, x4⟩

/-- C38 for the group, whose `read` applications call: an existing index gives what the interface gives and touches no other
interface; any other index is refused with `BadArgument` and nothing is touched. -/
theorem C38_group_read (g : Group) (index : Nat) (out : Vector FrameT FramesLen) (n : Nat) (ans : RecvAns) (hv : ValidRecv ans) :
    ∃ r, g.read index out n ans = .ok r ∧ r.group.interfaces.length = g.interfaces.length ∧
      (∀ j, j ≠ index → r.group.interfaces[j]? = g.interfaces[j]?) ∧
      (∀ s, g.interfaces[index]? = some s → ∃ ri, s.read out ans = .ok ri ∧ r.result = ri.result ∧
        r.out_frames = ri.out_frames ∧ r.read = ri.read ∧ r.group.interfaces[index]? = some ri.iface) ∧
      (g.interfaces.length ≤ index → r.result = .BadArgument ∧ r.out_frames = out ∧ r.read = n ∧ r.group = g) := by
  by_cases h : index < g.interfaces.length
  · obtain ⟨ri, h1, -⟩ := C38_read_order g.interfaces[index] out ans hv
    refine ⟨_, by simp only [Group.read, List.getElem?_eq_getElem h, h1, Outcome.ok_bind]; rfl, ?_, ?_, ?_, ?_⟩
    · simp
    · intro j hj; simp only [List.getElem?_set_ne (Ne.symm hj)]
    · intro s hs
      rw [List.getElem?_eq_getElem h, Option.some.injEq] at hs
      subst hs
      exact ⟨ri, h1, rfl, rfl, rfl, by simp [h]⟩
    · intro h'; omega
  · refine ⟨_, by simp only [Group.read, List.getElem?_eq_none (Nat.le_of_not_lt h)]; rfl, rfl, fun _ _ => rfl, ?_,
      fun _ => ⟨rfl, rfl, rfl, rfl⟩⟩
    intro s hs
    rw [List.getElem?_eq_none (Nat.le_of_not_lt h)] at hs
    cases hs

/-- A group of one interface: index 0 is served, index 1 refused. -/
example : ((⟨[Iface.mk' 0 "vcan0" 3]⟩ : Group).read 1 (Vector.replicate 4 Frame.default) 9 ⟨-1, EAGAIN, []⟩).bind
    (fun r => .ok (r.result, r.read)) = .ok (.BadArgument, 9) ∧
  ((⟨[Iface.mk' 0 "vcan0" 3]⟩ : Group).read 0 (Vector.replicate 4 Frame.default) 9 ⟨-1, EAGAIN, []⟩).bind
    (fun r => .ok (r.result, r.read)) = .ok (.SuccessNothing, 0) := ⟨rfl, rfl⟩

/-- Two data frames and an error frame between them. -/
example : ∃ ans : RecvAns, ValidRecv ans ∧
    (ans.msgs.filter (fun m => Delivers m.frame.can_id)).length = 2 ∧ ans.msgs.length = 3 :=
  ⟨⟨3, 0, [⟨false, ⟨0x80000001#32, 0, 0, 0, 0, Vector.replicate 64 0⟩, []⟩,
           ⟨false, ⟨0x20000004#32, 8, 0, 0, 0, Vector.replicate 64 0⟩, []⟩,
           ⟨true, ⟨0x80000002#32, 3, 0, 0, 0, Vector.replicate 64 7⟩, []⟩]⟩,
    by simp [ValidRecv], by decide +kernel, by decide⟩

/-! ## C39 -/

/-- The property as stated in `properties.jsonl`: in every batch, exactly the extended data frames are delivered. -/
def C39_Statement : Prop :=
  ∀ (s : Iface) (out : Vector FrameT FramesLen) (ans : RecvAns), ValidRecv ans → 0 < ans.res →
    ∃ r, s.read out ans = .ok r ∧ r.read = (ans.msgs.filter fun m => IsExtData m.frame.can_id).length

/-- C39, partial: the exact set of delivered identifiers. An extended data frame is delivered exactly when its identifier
is not zero; an error message never; a standard or remote frame exactly when its identifier is not zero.
Missing: extended data frames with identifier zero are dropped, standard and remote frames are not. -/
theorem C39_delivered_partial (s : Iface) (out : Vector FrameT FramesLen) (ans : RecvAns) (hv : ValidRecv ans)
    (h0 : 0 < ans.res) :
    (∃ r, s.read out ans = .ok r ∧ r.read = (ans.msgs.filter fun m => Delivers m.frame.can_id).length) ∧
    ∀ id : BitVec 32,
      (IsExtData id = true → (Delivers id = true ↔ canId29 id ≠ 0)) ∧
      (IsErr id = true → Delivers id = false) ∧
      (IsErr id = false → (Delivers id = true ↔ canId29 id ≠ 0)) := by
  constructor
  · obtain ⟨r, h1, -, h3⟩ := read_ok s out ans hv
    exact ⟨r, h1, (h3 h0).2.1⟩
  · intro id
    simp only [IsExtData, IsErr, Delivers]
    cases id.getLsbD 29 <;> cases id.getLsbD 30 <;> cases id.getLsbD 31 <;> simp

/-- C39, partial: it holds for every batch without identifiers zero, standard and remote frames. -/
theorem C39_normal_traffic_partial (s : Iface) (out : Vector FrameT FramesLen) (ans : RecvAns) (hv : ValidRecv ans)
    (h0 : 0 < ans.res)
    (hn : ∀ m ∈ ans.msgs, IsErr m.frame.can_id = true ∨ (IsExtData m.frame.can_id = true ∧ canId29 m.frame.can_id ≠ 0)) :
    ∃ r, s.read out ans = .ok r ∧ r.read = (ans.msgs.filter fun m => IsExtData m.frame.can_id).length := by
  obtain ⟨⟨r, h1, h2⟩, h3⟩ := C39_delivered_partial s out ans hv h0
  refine ⟨r, h1, ?_⟩
  rw [h2]
  congr 1
  apply List.filter_congr
  intro m hm
  have := h3 m.frame.can_id
  rcases hn m hm with h | ⟨h, hz⟩
  · rw [this.2.1 h]
    simp only [IsErr] at h
    simp only [IsExtData, h, Bool.not_true, Bool.and_false]
  · rw [h, (this.1 h).2 hz]

/-- C39 is false of the code, in both directions: an extended data frame with identifier zero is dropped, and a
standard (and remote) frame is delivered. -/
theorem C39_full_statement_fails : ¬ C39_Statement ∧
    (IsExtData 0x80000000#32 = true ∧ Delivers 0x80000000#32 = false) ∧
    (IsExtData 0x00000123#32 = false ∧ Delivers 0x00000123#32 = true) ∧
    (IsExtData 0xC0000123#32 = false ∧ Delivers 0xC0000123#32 = true) := by
  refine ⟨?_, by decide, by decide, by decide⟩
  intro h
  let m : RxMsg := ⟨true, ⟨0x00000123#32, 0, 0, 0, 0, Vector.replicate 64 0⟩, []⟩
  have hv : ValidRecv ⟨1, 0, [m]⟩ := by simp [ValidRecv]
  obtain ⟨r, h1, h2⟩ := h (Iface.mk' 0 "vcan0" 3) (Vector.replicate 4 Frame.default) ⟨1, 0, [m]⟩ hv (by decide)
  obtain ⟨⟨r', g1, g2⟩, -⟩ := C39_delivered_partial (Iface.mk' 0 "vcan0" 3) (Vector.replicate 4 Frame.default)
    ⟨1, 0, [m]⟩ hv (by decide)
  rw [h1] at g1
  injection g1 with g1
  subst g1
  rw [h2] at g2
  revert g2
  decide

/-! ## C40 -/

/-- The property as stated in `properties.jsonl`: every frame delivered carries its message, for every valid payload
length and timestamp. -/
def C40_Statement : Prop :=
  ∀ (s : Iface) (out : Vector FrameT FramesLen) (ans : RecvAns), ValidRecv ans → 0 < ans.res →
    (∀ m ∈ ans.msgs, ValidLen m ∧ ∀ c ∈ m.cmsgs, ∀ sec usec, c = .timestamp sec usec →
      sec.toNat < 2 ^ 43 ∧ usec.toNat < 1000000) →
    ∃ r, s.read out ans = .ok r ∧
      ∃ ms : List RxMsg, ms = ans.msgs.filter (fun m => Delivers m.frame.can_id) ∧ r.read = ms.length ∧
        ∀ j (hj : j < 4) (hm : j < ms.length), Carries ms[j] r.out_frames[j]

theorem lastStamp_eq (cs : List Cmsg)
    (h : ∀ c ∈ cs, ∀ sec usec, c = .timestamp sec usec → sec.toNat < 2 ^ 43 ∧ usec.toNat < 1000000) :
    (lastStamp TimePoint.default cs).toMicrosecond = stampOf cs := by
  have gen : ∀ (cs : List Cmsg) (t : TimePoint) (n : Nat), t.toMicrosecond = n →
      (∀ c ∈ cs, ∀ sec usec, c = .timestamp sec usec → sec.toNat < 2 ^ 43 ∧ usec.toNat < 1000000) →
      (lastStamp t cs).toMicrosecond =
        (cs.foldl (fun t c => match c with
          | .timestamp sec usec => sec.toNat * 1000000 + usec.toNat
          | _ => t) n : Nat) := by
    intro cs
    induction cs with
    | nil => intro t n h _; exact h
    | cons c cs ih =>
      intro t n ht hc
      simp only [lastStamp, List.foldl_cons]
      refine ih _ _ ?_ (fun c' h' => hc c' (List.mem_cons_of_mem _ h'))
      cases c with
      | timestamp sec usec =>
        obtain ⟨h1, h2⟩ := hc _ (List.mem_cons_self ..) sec usec rfl
        simp only [TimePoint.fromMicrosecond, TimePoint.toMicrosecond]
        have e : (sec * 1000000#64 + usec).toNat = sec.toNat * 1000000 + usec.toNat := by
          rw [BitVec.toNat_add, BitVec.toNat_mul]
          have : (1000000#64).toNat = 1000000 := by decide
          rw [this, Nat.mod_eq_of_lt (a := sec.toNat * 1000000) (by omega), Nat.mod_eq_of_lt (by omega)]
        rw [e]
      | rxqOvfl d => exact ht
      | other => exact ht
  exact gen cs TimePoint.default 0 rfl h

/-- C40, partial: identifier, timestamp and the first `getDataLength()` payload bytes are always right, and the frame carries
the message exactly when the payload has at most 8 bytes. Missing: longer payloads, where the length is taken
for a DLC. -/
theorem C40_content_partial (s : Iface) (out : Vector FrameT FramesLen) (ans : RecvAns) (hv : ValidRecv ans)
    (h0 : 0 < ans.res)
    (hm : ∀ m ∈ ans.msgs, ValidLen m ∧ ∀ c ∈ m.cmsgs, ∀ sec usec, c = .timestamp sec usec →
      sec.toNat < 2 ^ 43 ∧ usec.toNat < 1000000) :
    ∃ r, s.read out ans = .ok r ∧
      ∃ ms : List RxMsg, ms = ans.msgs.filter (fun m => Delivers m.frame.can_id) ∧ r.read = ms.length ∧
        ∀ j (hj : j < 4) (hm : j < ms.length),
          canId29 r.out_frames[j].id = canId29 ms[j].frame.can_id ∧
          r.out_frames[j].timestamp.toMicrosecond = stampOf ms[j].cmsgs ∧
          (Carries ms[j] r.out_frames[j] ↔ ms[j].frame.len.toNat ≤ 8) := by
  obtain ⟨r, h1, -, h3⟩ := read_ok s out ans hv
  obtain ⟨a, b, c, d, e, f⟩ := h3 h0
  refine ⟨r, h1, delivered ans.msgs, rfl, b, ?_⟩
  intro j hj hlt
  obtain ⟨x1, x2, x3, x4⟩ := e j hlt hj
  have hmem : (delivered ans.msgs)[j] ∈ ans.msgs := by
    have := List.getElem_mem hlt
    exact (List.mem_filter.1 this).1
  obtain ⟨hl, hc⟩ := hm _ hmem
  have hts : r.out_frames[j].timestamp.toMicrosecond = stampOf (delivered ans.msgs)[j].cmsgs := by
    rw [x3]; exact lastStamp_eq _ hc
  have hid : canId29 r.out_frames[j].id = canId29 (delivered ans.msgs)[j].frame.can_id := by rw [x1]
  refine ⟨hid, hts, ?_⟩
  constructor
  · rintro ⟨-, h2, -, -⟩
    simp only [Frame.getDataLength, x2] at h2
    by_cases h16 : (delivered ans.msgs)[j].frame.len.toNat < 16
    · have : ∀ d : Fin 16, dlcToLength d.val = d.val → d.val ≤ 8 := by decide
      exact this ⟨_, h16⟩ h2
    · rw [dlcToLength_ge (by omega)] at h2; omega
  · intro h8
    have htab : ∀ d : Fin 9, dlcToLength d.val = d.val := by decide
    have hlen : dlcToLength (delivered ans.msgs)[j].frame.len.toNat = (delivered ans.msgs)[j].frame.len.toNat :=
      htab ⟨_, Nat.lt_succ_of_le h8⟩
    refine ⟨hid, by simp only [Frame.getDataLength, x2, hlen], ?_, hts⟩
    intro k hk hkl
    refine x4 k hk (by rw [x2, hlen]; exact hkl) ?_
    simp only [RxMsg.room]
    split <;> omega

/-- C40 is false of the code: 12 bytes received are delivered as 24. -/
theorem C40_full_statement_fails : ¬ C40_Statement := by
  intro h
  let m : RxMsg := ⟨false, ⟨0x80000001#32, 12, 0, 0, 0, Vector.replicate 64 0⟩, []⟩
  have hv : ValidRecv ⟨1, 0, [m]⟩ := by simp [ValidRecv]
  have hm : ∀ x ∈ [m], ValidLen x ∧ ∀ c ∈ x.cmsgs, ∀ sec usec, c = .timestamp sec usec →
      sec.toNat < 2 ^ 43 ∧ usec.toNat < 1000000 := by
    intro x hx
    simp only [List.mem_singleton] at hx
    subst hx
    exact ⟨⟨by decide, by simp [m]⟩, by simp [m]⟩
  obtain ⟨r, h1, ms, h2, h3, h4⟩ := h (Iface.mk' 0 "vcan0" 3) (Vector.replicate 4 Frame.default) ⟨1, 0, [m]⟩ hv
    (by decide) hm
  obtain ⟨r', g1, ms', g2, g3, g4⟩ := C40_content_partial (Iface.mk' 0 "vcan0" 3) (Vector.replicate 4 Frame.default)
    ⟨1, 0, [m]⟩ hv (by decide) hm
  rw [h1] at g1
  injection g1 with g1
  subst g1
  have e : ms = [m] := by rw [h2]; exact List.filter_cons_of_pos (by decide)
  have e' : ms' = [m] := by rw [g2]; exact List.filter_cons_of_pos (by decide)
  subst e
  subst e'
  have := (g4 0 (by decide) (by decide)).2.2.1 (h4 0 (by decide) (by decide))
  revert this
  decide

/-- What happens to each CAN FD length above 8: 12 becomes 24, and every longer one 0. -/
example : [12, 16, 20, 24, 32, 48, 64].map dlcToLength = [24, 0, 0, 0, 0, 0, 0] := by decide

/-- A received frame that satisfies all hypotheses: 8 bytes, 1.5 s. -/
example : ∃ m : RxMsg, ValidLen m ∧ m.frame.len.toNat = 8 ∧ stampOf m.cmsgs = 1500000 ∧ Delivers m.frame.can_id = true :=
  ⟨⟨true, ⟨0x80000001#32, 8, 0, 0, 0, Vector.replicate 64 9⟩, [.other, .timestamp 1#64 500000#64]⟩,
    ⟨by decide, by decide⟩, by decide, by decide, by decide⟩

/-! ## C41 -/

/-- The kernel hands submitted frames back unchanged, as CAN FD frames with any control messages. -/
def Echo (sent : List CanfdFrame) (ans : RecvAns) : Prop :=
  ans.res = sent.length ∧ ans.msgs.map RxMsg.frame = sent ∧ ∀ m ∈ ans.msgs, m.classic = false

/-- The property as stated in `properties.jsonl`: writing up to four frames to one interface and reading them back on
another (or the same) gives frames that compare equal, in order. -/
def C41_Statement : Prop :=
  ∀ (s s' : Iface) (n : Nat) (frames out : Vector FrameT FramesLen) (a : SysAns) (ans : RecvAns), 0 < n → n ≤ 4 →
    (∀ j (hj : j < 4), frames[j].dlc < 256) →
    ∃ w, s.write frames n a = .ok w ∧ (Echo w.submitted ans → ∃ r, s'.read out ans = .ok r ∧ r.read = n ∧
      ∀ j (hj : j < 4), j < n → frames[j].eq 0 r.out_frames[j] = .ok true)

theorem delivered_all {ms : List RxMsg} (h : ∀ m ∈ ms, Delivers m.frame.can_id = true) : delivered ms = ms :=
  List.filter_eq_self.2 h

/-- C41, partial: it holds for every frame (of any DLC, even invalid ones) whose 29-bit identifier is not zero: the mistakes
in `write` (C37) and `read` (C40) cancel. Missing: identifier zero, which `read` drops. -/
theorem C41_roundtrip_partial (s s' : Iface) (n : Nat) (frames out : Vector FrameT FramesLen) (a : SysAns) (ans : RecvAns)
    (h0 : 0 < n) (h4 : n ≤ 4) (hd : ∀ j (hj : j < 4), j < n → frames[j].dlc < 256)
    (hz : ∀ j (hj : j < 4), j < n → canId29 frames[j].id ≠ 0) :
    ∃ w, s.write frames n a = .ok w ∧ (Echo w.submitted ans → ∃ r, s'.read out ans = .ok r ∧ r.read = n ∧
      ∀ j (hj : j < 4), j < n → frames[j].eq 0 r.out_frames[j] = .ok true) := by
  obtain ⟨w, hw, hl, hj⟩ := C37_wire_partial s n frames a h0 h4 hd
  refine ⟨w, hw, ?_⟩
  rintro ⟨e1, e2, e3⟩
  have hml : ans.msgs.length = n := by rw [← hl, ← e2]; simp
  have hv : ValidRecv ans := ⟨by omega, fun _ => by omega⟩
  obtain ⟨r, h1, -, h3⟩ := read_ok s' out ans hv
  obtain ⟨-, b, -, -, e, -⟩ := h3 (by omega)
  have hframe : ∀ j (h : j < ans.msgs.length), ans.msgs[j].frame = w.submitted[j]'(by omega) := by
    intro j h
    simp only [← e2, List.getElem_map]
  have hall : delivered ans.msgs = ans.msgs := by
    apply delivered_all
    intro m hm
    obtain ⟨j, hjl, rfl⟩ := List.getElem_of_mem hm
    rw [hframe j hjl]
    obtain ⟨x1, x2, -, -, -⟩ := hj j (by omega) (by omega)
    have : Delivers (w.submitted[j]'(by omega)).can_id = true ↔ canId29 (w.submitted[j]'(by omega)).can_id ≠ 0 := by
      simp only [IsExtData] at x1
      simp only [Delivers]
      revert x1
      cases (w.submitted[j]'(by omega)).can_id.getLsbD 29 <;> simp
    rw [this, x2]
    exact hz j (by omega) (by omega)
  refine ⟨r, h1, by rw [b, hall, hml], ?_⟩
  intro j hj4 hjn
  have hlt : j < (delivered ans.msgs).length := by rw [hall]; omega
  obtain ⟨y1, y2, -, y4⟩ := e j hlt hj4
  have hm : (delivered ans.msgs)[j] = ans.msgs[j]'(by omega) := by simp only [hall]
  rw [hm] at y1 y2 y4
  rw [hframe j (by omega)] at y1 y2 y4
  obtain ⟨x1, x2, x3, x4, -⟩ := hj j hj4 (by omega)
  have hroom : RxMsg.room (ans.msgs[j]'(by omega)) = 64 := by
    simp [RxMsg.room, e3 _ (List.getElem_mem _)]
  have hmask : MaskIdWithFlags 0 = MaskExtID := by decide
  have hideq : frames[j].id &&& MaskExtID = r.out_frames[j].id &&& MaskExtID := by
    apply BitVec.eq_of_toNat_eq
    rw [and_maskExt_toNat, and_maskExt_toNat, y1, x2]
  have hdlc : frames[j].dlc = r.out_frames[j].dlc := by rw [y2, x4]
  obtain ⟨b', hb1, hb2⟩ := equalBytes_ok frames[j].data r.out_frames[j].data (dlcToLength frames[j].dlc) 0
    (by have := dlcToLength_le frames[j].dlc; omega)
  simp only [Frame.eq, hmask, hideq, hdlc, if_true]
  rw [← hdlc, equal, if_pos (by have := dlcToLength_le frames[j].dlc; omega), hb1]
  congr 1
  rw [hb2]
  intro k hk _ hkl
  rw [y4 k hk (by rw [← hdlc]; omega) (by rw [hroom]; omega)]
  exact (x3 k hk (by simpa [Frame.getDataLength] using hkl)).symm

/-- C41 is false of the code: a frame with identifier zero does not come back. -/
theorem C41_full_statement_fails : ¬ C41_Statement := by
  intro h
  obtain ⟨w, h1, h2⟩ := h (Iface.mk' 0 "vcan0" 3) (Iface.mk' 0 "vcan0" 3) 1 (Vector.replicate 4 Frame.default)
    (Vector.replicate 4 Frame.default) ⟨1, 0⟩
    ⟨1, 0, [⟨false, ⟨0x80000000#32, 0, 0, 0, 0, Vector.replicate 64 0⟩, []⟩]⟩ (by decide) (by decide) (by decide)
  have hs : ((Iface.mk' 0 "vcan0" 3).write (Vector.replicate 4 Frame.default) 1 ⟨1, 0⟩).bind
      (fun r => .ok r.submitted) = .ok [⟨0x80000000#32, 0, 0, 0, 0, Vector.replicate 64 0⟩] := by decide +kernel
  rw [h1] at hs
  simp only [Outcome.bind, Outcome.ok.injEq] at hs
  obtain ⟨r, h3, h4, -⟩ := h2 ⟨by rw [hs]; rfl, by rw [hs]; rfl, by simp⟩
  obtain ⟨⟨r', g1, g2⟩, -⟩ := C39_delivered_partial (Iface.mk' 0 "vcan0" 3) (Vector.replicate 4 Frame.default)
    ⟨1, 0, [⟨false, ⟨0x80000000#32, 0, 0, 0, 0, Vector.replicate 64 0⟩, []⟩]⟩ (by simp [ValidRecv]) (by decide)
  rw [h3] at g1
  injection g1 with g1
  subst g1
  rw [h4] at g2
  revert g2
  decide

/-! ## C42 -/

/-- The property as stated in `properties.jsonl`: after any history of calls on a fresh interface (short enough for 64-bit
counters), every statistic has the value its name promises. -/
def C42_Statement : Prop :=
  ∀ (index : Nat) (name : String) (fd : Int) (ops : List IfaceOp), (∀ op ∈ ops, ValidOp op) →
    (received ops).length < 2 ^ 64 →
    ∃ s, (Iface.mk' index name fd).run ops = .ok s ∧
      (∀ c : ErrClass, (c.stat s.stats).toNat = ((received ops).filter (Reports c)).length) ∧
      s.stats.rx_total.toNat = ((received ops).filter fun m => Delivers m.frame.can_id).length ∧
      s.stats.rx_dropped.toNat = droppedSoFar (received ops)

theorem bump_eq (id m : BitVec 32) (k : Nat) (hk : k < 32) (hm : ∀ i : Fin 32, m.getLsbD i = decide (i.val = k))
    (c : BitVec 64) : bump id m c = c + BitVec.ofNat 64 (if id.getLsbD k then 1 else 0) := by
  unfold bump
  by_cases h : id.getLsbD k = true
  · rw [if_pos ((and_twoPow_ne_zero id m k hk hm).2 h)]; simp [h]
  · rw [if_neg (fun hh => h ((and_twoPow_ne_zero id m k hk hm).1 hh))]; simp [h]

theorem statsAfter_err (s : Statistics) (m : RxMsg) (c : ErrClass) :
    c.stat (statsAfter s m) = c.stat s + BitVec.ofNat 64 (if Reports c m then 1 else 0) := by
  unfold statsAfter Reports
  by_cases h : IsErr m.frame.can_id = true
  · simp only [h, if_true, Bool.true_and]
    cases c <;> simp only [ErrClass.stat, countErrors, ErrClass.bitNo] <;>
      exact bump_eq _ _ _ (by omega) (by decide) _
  · simp only [Bool.not_eq_true] at h
    simp only [h, Bool.false_eq_true, if_false, Bool.false_and]
    cases c <;> simp [ErrClass.stat]

theorem statsAfter_dropped (s : Statistics) (m : RxMsg) :
    (statsAfter s m).rx_dropped = s.rx_dropped + sum64 (dropsOf m.cmsgs) := by
  unfold statsAfter
  split <;> rfl

theorem foldl_err (ms : List RxMsg) (s : Statistics) (c : ErrClass) :
    c.stat (ms.foldl statsAfter s) = c.stat s + BitVec.ofNat 64 (ms.filter (Reports c)).length := by
  induction ms generalizing s with
  | nil => simp
  | cons m ms ih =>
    rw [List.foldl_cons, ih, statsAfter_err, BitVec.add_assoc, ← BitVec.ofNat_add]
    congr 2
    simp only [List.filter_cons]
    split
    · simp; omega
    · omega

theorem foldl_dropped (ms : List RxMsg) (s : Statistics) :
    (ms.foldl statsAfter s).rx_dropped = s.rx_dropped + sum64 (ms.flatMap fun m => dropsOf m.cmsgs) := by
  induction ms generalizing s with
  | nil => simp [sum64]
  | cons m ms ih =>
    rw [List.foldl_cons, ih, statsAfter_dropped, List.flatMap_cons, sum64_append, BitVec.add_assoc]

theorem step_stats (s : Iface) (op : IfaceOp) (h : ValidOp op) :
    ∃ s', s.step op = .ok s' ∧
      (∀ c : ErrClass, c.stat s'.stats = c.stat s.stats + BitVec.ofNat 64 ((opMsgs op).filter (Reports c)).length) ∧
      s'.stats.rx_total = s.stats.rx_total +
        BitVec.ofNat 64 ((opMsgs op).filter fun m => Delivers m.frame.can_id).length ∧
      s'.stats.rx_dropped = s.stats.rx_dropped + sum64 ((opMsgs op).flatMap fun m => dropsOf m.cmsgs) := by
  cases op with
  | write f n a =>
    obtain ⟨h4, hv⟩ := h
    by_cases h0 : n = 0
    · subst h0
      exact ⟨s, by simp [Iface.step, Iface.write], by simp [opMsgs], by simp [opMsgs], by simp [opMsgs, sum64]⟩
    · obtain ⟨b, -, -, hw⟩ := write_ok s f n a (by omega) h4
      exact ⟨{ s with bufs := b }, by simp only [Iface.step, hw, Outcome.ok_bind]; rfl, by simp [opMsgs],
        by simp [opMsgs], by simp [opMsgs, sum64]⟩
  | read o a =>
    obtain ⟨r, h1, h2, -, h3, h4, h5⟩ := C38_read_order s o a h
    obtain ⟨r', g1, g2, g3⟩ := read_ok s o a h
    rw [h1] at g1
    injection g1 with g1
    subst g1
    refine ⟨r.iface, by simp only [Iface.step, h1, Outcome.ok_bind]; rfl, ?_⟩
    by_cases hr : a.res ≤ 0
    · obtain ⟨-, -, hs, -⟩ := g2 hr
      simp [opMsgs, hr, hs, sum64]
    · obtain ⟨-, hn, hl, -, -, hs⟩ := g3 (by omega)
      have htake : a.msgs.take a.res.toNat = a.msgs := List.take_of_length_le (by have := h.2 (by omega); omega)
      simp only [opMsgs, hr, if_false, htake]
      refine ⟨?_, ?_, ?_⟩
      · intro c
        rw [hs, ← foldl_err a.msgs s.stats c]
        cases c <;> rfl
      · rw [h3, hn]; rfl
      · rw [hs]; exact foldl_dropped a.msgs s.stats

theorem run_stats (s : Iface) (ops : List IfaceOp) (h : ∀ op ∈ ops, ValidOp op) :
    ∃ s', s.run ops = .ok s' ∧
      (∀ c : ErrClass, c.stat s'.stats = c.stat s.stats + BitVec.ofNat 64 ((received ops).filter (Reports c)).length) ∧
      s'.stats.rx_total = s.stats.rx_total +
        BitVec.ofNat 64 ((received ops).filter fun m => Delivers m.frame.can_id).length ∧
      s'.stats.rx_dropped = s.stats.rx_dropped + sum64 ((received ops).flatMap fun m => dropsOf m.cmsgs) := by
  induction ops generalizing s with
  | nil => exact ⟨s, rfl, by simp [received], by simp [received], by simp [received, sum64]⟩
  | cons op ops ih =>
    obtain ⟨s1, h1, a1, b1, c1⟩ := step_stats s op (h op (List.mem_cons_self ..))
    obtain ⟨s2, h2, a2, b2, c2⟩ := ih s1 (fun o ho => h o (List.mem_cons_of_mem _ ho))
    refine ⟨s2, by simp only [Iface.run, h1, Outcome.ok_bind, h2], ?_, ?_, ?_⟩
    · intro c
      rw [a2, a1, BitVec.add_assoc, ← BitVec.ofNat_add]
      simp [received, List.filter_append]
    · rw [b2, b1, BitVec.add_assoc, ← BitVec.ofNat_add]
      simp [received, List.filter_append]
    · rw [c2, c1, BitVec.add_assoc, ← sum64_append]
      simp [received, List.flatMap_append]

/-- C42, partial: after any history on a fresh interface the error statistics and `rx_total` have the promised values, and
`rx_dropped` is the sum (in 64 bits) of all drop counts the kernel ever attached. Missing: since those counts are
cumulative, that sum is not the number of frames dropped. -/
theorem C42_statistics_partial (index : Nat) (name : String) (fd : Int) (ops : List IfaceOp)
    (hv : ∀ op ∈ ops, ValidOp op) (hlen : (received ops).length < 2 ^ 64) :
    ∃ s, (Iface.mk' index name fd).run ops = .ok s ∧
      (∀ c : ErrClass, (c.stat s.stats).toNat = ((received ops).filter (Reports c)).length) ∧
      s.stats.rx_total.toNat = ((received ops).filter fun m => Delivers m.frame.can_id).length ∧
      s.stats.rx_dropped = sum64 ((received ops).flatMap fun m => dropsOf m.cmsgs) := by
  obtain ⟨s, h1, a, b, c⟩ := run_stats (Iface.mk' index name fd) ops hv
  refine ⟨s, h1, ?_, ?_, ?_⟩
  · intro cl
    rw [a]
    have h0 : cl.stat (Iface.mk' index name fd).stats = 0#64 := by cases cl <;> rfl
    have := List.length_filter_le (Reports cl) (received ops)
    rw [h0, BitVec.zero_add, BitVec.toNat_ofNat, Nat.mod_eq_of_lt (by omega)]
  · rw [b]
    have h0 : (Iface.mk' index name fd).stats.rx_total = 0#64 := rfl
    have := List.length_filter_le (fun m : RxMsg => Delivers m.frame.can_id) (received ops)
    rw [h0, BitVec.zero_add, BitVec.toNat_ofNat, Nat.mod_eq_of_lt (by omega)]
  · rw [c]
    have h0 : (Iface.mk' index name fd).stats.rx_dropped = 0 := rfl
    rw [h0]; exact BitVec.zero_add _

theorem sum64_small (l : List (BitVec 32)) (h : l.length < 2 ^ 32) : (sum64 l).toNat = (l.map BitVec.toNat).sum := by
  have key : ∀ l : List (BitVec 32), (l.map BitVec.toNat).sum ≤ l.length * (2 ^ 32 - 1) := by
    intro l
    induction l with
    | nil => simp
    | cons x xs ih => have := x.isLt; simp only [List.map_cons, List.sum_cons, List.length_cons]; omega
  induction l with
  | nil => rfl
  | cons x xs ih =>
    have hk := key (x :: xs)
    simp only [List.length_cons, List.map_cons, List.sum_cons] at h hk ⊢
    rw [show sum64 (x :: xs) = x.setWidth 64 + sum64 xs from rfl, BitVec.toNat_add, ih (by omega), BitVec.toNat_setWidth]
    have := x.isLt
    omega

/-- C42, partial, exactly: `rx_dropped` is right if and only if every count that the kernel reported before the last one was zero;
in particular while drops were reported at most once. -/
theorem C42_dropped_iff_partial (index : Nat) (name : String) (fd : Int) (ops : List IfaceOp)
    (hv : ∀ op ∈ ops, ValidOp op) (h1 : ((received ops).flatMap fun m => dropsOf m.cmsgs).length < 2 ^ 32) :
    ∃ s, (Iface.mk' index name fd).run ops = .ok s ∧ (s.stats.rx_dropped.toNat = droppedSoFar (received ops) ↔
      ∀ d ∈ ((received ops).flatMap fun m => dropsOf m.cmsgs).dropLast, d = 0#32) := by
  obtain ⟨s, hs, -, -, c⟩ := run_stats (Iface.mk' index name fd) ops hv
  refine ⟨s, hs, ?_⟩
  have h0 : (Iface.mk' index name fd).stats.rx_dropped = 0#64 := rfl
  rw [c, h0, BitVec.zero_add, droppedSoFar]
  generalize (received ops).flatMap (fun m => dropsOf m.cmsgs) = l at h1 ⊢
  rw [sum64_small l h1]
  rcases List.eq_nil_or_concat l with rfl | ⟨a, d, rfl⟩
  · simp
  · have : (a.map BitVec.toNat).sum = 0 ↔ ∀ x ∈ a, x = 0#32 := by
      clear h1
      induction a with
      | nil => simp
      | cons x xs ih =>
        simp only [List.map_cons, List.sum_cons, List.mem_cons, forall_eq_or_imp, Nat.add_eq_zero_iff]
        rw [ih, ← BitVec.toNat_inj]
        rfl
    rw [List.concat_eq_append, List.dropLast_concat, ← this]
    simp

/-- C42 is false of the code: after two messages which both report one dropped frame, `rx_dropped` is 2. -/
theorem C42_full_statement_fails : ¬ C42_Statement := by
  intro h
  let m : RxMsg := ⟨true, ⟨0x80000001#32, 0, 0, 0, 0, Vector.replicate 64 0⟩, [.rxqOvfl 1#32]⟩
  let ops : List IfaceOp := [.read (Vector.replicate 4 Frame.default) ⟨2, 0, [m, m]⟩]
  have hv : ∀ op ∈ ops, ValidOp op := by
    intro op hop
    simp only [ops, List.mem_singleton] at hop
    subst hop
    simp [ValidOp, ValidRecv]
  have hrec : received ops = [m, m] := rfl
  obtain ⟨s, h1, -, -, h4⟩ := h 0 "vcan0" 3 ops hv (by rw [hrec]; decide)
  obtain ⟨s', g1, -, -, g4⟩ := run_stats (Iface.mk' 0 "vcan0" 3) ops hv
  rw [h1] at g1
  injection g1 with g1
  subst g1
  rw [g4, hrec] at h4
  revert h4
  decide

example : Reports .busOff ⟨true, ⟨0x20000044#32, 8, 0, 0, 0, Vector.replicate 64 0⟩, []⟩ = true ∧
    Reports .ack ⟨true, ⟨0x20000044#32, 8, 0, 0, 0, Vector.replicate 64 0⟩, []⟩ = false := by decide

end Uavcan.SocketCan
