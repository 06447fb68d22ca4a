import Verif.Lemmas.SocketSend

/-!
# C103: reading and writing do not block; C104: frames can be sent with and without CAN FD
-/

namespace Uavcan.SocketCan
open Spec Can

/-! ## C103 -/

/-- The property as stated in `properties.jsonl`: the calls return even if from now on no frame leaves or arrives. -/
def C103_Statement : Prop :=
  (∀ (s : Iface) (frames : Vector FrameT FramesLen) (n : Nat), 0 < n → n ≤ 4 → ∀ tx : Tx, tx.nonblock = Nonblocking socketType →
    ∃ c, s.sendCall frames n = .ok (some c) ∧ (sendmmsg [] tx c).isSome) ∧
  (∀ queue : List RxMsg, (recvmmsg (Nonblocking socketType) [] queue recvCall).isSome)

/-- C103: the sockets are raw CAN sockets, for which `Spec/SocketSend` is meant, and are made as blocking ones. -/
theorem C103_socket : AsksForRawCan socketArgs ∧ socketArgs.2.1 = socketType ∧ Nonblocking socketType = false :=
  ⟨by unfold AsksForRawCan; decide, rfl, by decide⟩

/-- C103, partial: `read` returns, whatever is in the queue of the socket: with nothing, `SuccessNothing`; otherwise with the first
messages, up to four, and `Success`. -/
theorem C103_read_partial (s : Iface) (out : Vector FrameT FramesLen) (queue : List RxMsg) :
    ∃ ans r, recvmmsg (Nonblocking socketType) [] queue recvCall = some ans ∧ ValidRecv ans ∧ s.read out ans = .ok r ∧
      (queue = [] → r.result = .SuccessNothing ∧ r.read = 0) ∧
      (queue ≠ [] → r.result = .Success ∧ ans.msgs = queue.take 4) := by
  have hd : DontWait recvCall.flags = true := by decide
  have h := recvAll_dontwait (Nonblocking socketType) [] 4 queue [] (by simp)
  rw [List.nil_append] at h
  have hr : recvmmsg (Nonblocking socketType) [] queue recvCall = recvAll true (Nonblocking socketType) [] queue 4 [] := by
    rw [← hd]; rfl
  by_cases hq : queue = []
  · subst hq
    rw [List.take_nil, if_pos rfl] at h
    obtain ⟨r, h1, h2, h3⟩ := read_ok s out { res := -1, errno := 11, msgs := [] } ⟨by decide, fun h => absurd h (by decide)⟩
    refine ⟨_, r, hr.trans h, ⟨by decide, fun h => absurd h (by decide)⟩, h1, fun _ => ?_, fun h => absurd rfl h⟩
    obtain ⟨a, _, _, d⟩ := h2 (by decide)
    exact ⟨d.trans (by decide), a⟩
  · have hne : queue.take 4 ≠ [] := by
      cases queue with
      | nil => exact absurd rfl hq
      | cons m ms => simp
    rw [if_neg hne] at h
    have hlen : (queue.take 4).length ≤ 4 := by simp; omega
    have hpos : 0 < (queue.take 4).length := List.length_pos_iff.2 hne
    have hv : ValidRecv { res := (queue.take 4).length, errno := 0, msgs := queue.take 4 } :=
      ⟨by simp only; omega, fun _ => rfl⟩
    obtain ⟨r, h1, h2, h3⟩ := read_ok s out _ hv
    exact ⟨_, r, hr.trans h, hv, h1, fun h => absurd h hq, fun _ => ⟨(h3 (by simp only; omega)).1, rfl⟩⟩

/-- C103, partial: `write` waits for frames to leave exactly if the send buffer of the socket has less room than it needs and the
transmit queue of the network interface does not fill first. `wakes` are the numbers of frames leaving while it waits. When it
returns, all frames were taken, or as many as the transmit queue takes; and `BufferFull` means a full transmit queue, never a
full send buffer. Missing: it should return `BufferFull` instead of waiting. -/
theorem C103_write_partial (s : Iface) (frames : Vector FrameT FramesLen) (n : Nat) (h0 : 0 < n) (h4 : n ≤ 4) (wakes : List Nat)
    (tx : Tx) (hb : tx.nonblock = Nonblocking socketType) (hf : tx.fdFrames = true) (hm : tx.mtu = 72) :
    ∃ c, s.sendCall frames n = .ok (some c) ∧
      (sendmmsg wakes tx c = none ↔ tx.room ≤ tx.queue ∧ tx.room + wakes.sum < n) ∧
      ∀ ans, sendmmsg wakes tx c = some ans → ∃ w, s.write frames n ans = .ok w ∧ w.submitted = c.msgs.map (·.2) ∧
        w.written = (if tx.room ≤ tx.queue then n else min n tx.queue) ∧
        (w.result = .BufferFull ↔ tx.queue = 0 ∧ 0 < tx.room) ∧ w.result ≠ .Failure := by
  obtain ⟨c, -, hc, -, -, hsz, hdw, -⟩ := sendCall_ok s frames n ⟨0, 0⟩ h0 h4
  have hb' : tx.nonblock = false := by rw [hb]; decide
  have hs : ∀ a, sendmmsg wakes tx c = a ↔ sendAll false wakes tx (List.replicate n 72) 0 = a := by
    intro a; unfold sendmmsg; rw [hdw, hsz]
  have hw : ∀ ans, ∃ w, s.write frames n ans = .ok w ∧ w.submitted = c.msgs.map (·.2) ∧ w.written = queued ans ∧
      w.result = if ans.res ≤ 0 then (if ans.errno = ENOBUFS ∨ ans.errno = EAGAIN then .BufferFull else .Failure)
                    else if ans.res.toNat < n then .SuccessPartial else .Success := by
    intro ans
    obtain ⟨c', w, h1, h2, h3, -, -, h5, h6⟩ := sendCall_ok s frames n ans h0 h4
    rw [hc] at h1
    cases h1
    exact ⟨w, h2, h3, h5, h6⟩
  refine ⟨c, hc, ?_, ?_⟩
  · rw [hs]
    by_cases hq : tx.room ≤ tx.queue
    · obtain ⟨i1, i2⟩ := sendAll_room wakes n tx 0 _ ⟨hf, hm⟩ hb' hq rfl
      constructor
      · intro h
        refine ⟨hq, ?_⟩
        by_cases hn : n ≤ tx.room + wakes.sum
        · rw [i1 hn] at h; cases h
        · omega
      · exact fun h => i2 h.2
    · obtain ⟨i1, i2, i3⟩ := sendAll_queue wakes n tx 0 ⟨hf, hm⟩ hb' (by omega)
      refine ⟨fun h => ?_, fun h => absurd h.1 hq⟩
      by_cases hn : n ≤ tx.queue
      · rw [i1 hn] at h; cases h
      · by_cases hz : 0 + tx.queue = 0
        · rw [i2 (by omega) hz] at h; cases h
        · rw [i3 (by omega) hz] at h; cases h
  · intro ans ha
    rw [hs] at ha
    obtain ⟨w, w1, w2, w3, w4⟩ := hw ans
    refine ⟨w, w1, w2, ?_⟩
    by_cases hq : tx.room ≤ tx.queue
    · obtain ⟨i1, i2⟩ := sendAll_room wakes n tx 0 _ ⟨hf, hm⟩ hb' hq rfl
      by_cases hn : n ≤ tx.room + wakes.sum
      · rw [i1 hn] at ha
        cases ha
        rw [w3, w4, if_pos hq]
        simp only [queued, Nat.zero_add]
        rw [if_pos (by omega), if_neg (by omega), if_neg (by omega)]
        refine ⟨by omega, ⟨fun h => (by cases h), fun h => by omega⟩, by simp⟩
      · rw [i2 (by omega)] at ha; cases ha
    · obtain ⟨i1, i2, i3⟩ := sendAll_queue wakes n tx 0 ⟨hf, hm⟩ hb' (by omega)
      rw [w3, w4, if_neg hq]
      by_cases hn : n ≤ tx.queue
      · rw [i1 hn] at ha
        cases ha
        simp only [queued, Nat.zero_add]
        rw [if_pos (by omega), if_neg (by omega), if_neg (by omega)]
        refine ⟨by omega, ⟨fun h => (by cases h), fun h => by omega⟩, by simp⟩
      · by_cases hz : 0 + tx.queue = 0
        · rw [i2 (by omega) hz] at ha
          cases ha
          rw [show queued { res := -1, errno := 105 } = 0 by decide, show (if ({ res := -1, errno := 105 } : SysAns).res ≤ 0 then
            (if ({ res := -1, errno := 105 } : SysAns).errno = ENOBUFS ∨ ({ res := -1, errno := 105 } : SysAns).errno = EAGAIN then
              Result.BufferFull else .Failure) else if ({ res := -1, errno := 105 } : SysAns).res.toNat < n then .SuccessPartial
              else .Success) = .BufferFull from rfl]
          exact ⟨by omega, ⟨fun _ => by omega, fun _ => rfl⟩, by simp⟩
        · rw [i3 (by omega) hz] at ha
          cases ha
          simp only [queued, Nat.zero_add]
          rw [if_pos (by omega), if_neg (by omega), if_pos (by omega)]
          refine ⟨by omega, ⟨fun h => (by cases h), fun h => by omega⟩, by simp⟩

/-- C103, partial: while the bus takes no frames (nobody acknowledges, or the controller is off the bus), a `write` that waits
never returns. -/
theorem C103_dead_bus_partial (s : Iface) (frames : Vector FrameT FramesLen) (n : Nat) (h0 : 0 < n) (h4 : n ≤ 4) (k : Nat)
    (tx : Tx) (hb : tx.nonblock = Nonblocking socketType) (hf : tx.fdFrames = true) (hm : tx.mtu = 72) (hr : tx.room < n)
    (hq : tx.room ≤ tx.queue) :
    ∃ c, s.sendCall frames n = .ok (some c) ∧ sendmmsg (List.replicate k 0) tx c = none := by
  obtain ⟨c, hc, h, -⟩ := C103_write_partial s frames n h0 h4 (List.replicate k 0) tx hb hf hm
  exact ⟨c, hc, h.2 ⟨hq, by simpa using hr⟩⟩

/-- C103 is false of the code: no room for the only frame. -/
theorem C103_full_statement_fails : ¬ C103_Statement := by
  intro h
  obtain ⟨c, h1, h2⟩ := h.1 (Iface.mk' 0 "can0" 3) (Vector.replicate 4 Frame.default) 1 (by decide) (by decide)
    ⟨Nonblocking socketType, true, 72, 0, 10⟩ rfl
  obtain ⟨c', h3, h4⟩ := C103_dead_bus_partial (Iface.mk' 0 "can0" 3) (Vector.replicate 4 Frame.default) 1 (by decide) (by decide) 0
    ⟨Nonblocking socketType, true, 72, 0, 10⟩ rfl rfl rfl (by decide) (by decide)
  rw [h1] at h3
  cases h3
  rw [List.replicate_zero] at h4
  rw [h4] at h2
  cases h2

/-- Room for one frame: two of them wait until one has left; with a transmit queue of one the second is refused. -/
example : sendAll false [] ⟨false, true, 72, 1, 10⟩ [72, 72] 0 = none ∧
    sendAll false [0, 1] ⟨false, true, 72, 1, 10⟩ [72, 72] 0 = some ⟨2, 0⟩ ∧
    sendAll false [] ⟨false, true, 72, 5, 1⟩ [72, 72] 0 = some ⟨1, 0⟩ ∧
    sendAll true [] ⟨false, true, 72, 0, 1⟩ [72, 72] 0 = some ⟨-1, 11⟩ := by
  simp [sendAll.eq_def, sendOne]

/-! ## C104 -/

/-- CAN FD is on for the socket of an interface: the code asked for it. -/
def FdOn (fd : Int) (evs : List FdEv) : Bool := decide (FdEv.call fd .canFd ∈ evs)

/-- The property as stated in `properties.jsonl`: an interface made by a manager sends CAN 2.0 frames if there is room for them,
whether the manager was told to use CAN FD or not and whether the network interface supports it or not. -/
def C104_Statement : Prop :=
  ∀ (m : Manager) (index : Nat) (name : String) (fc : Option (List Filter)) (num : Nat) (a : OpenAns) (i : Iface) (evs : List FdEv),
    m.createInterface index name fc num a = .ok (.Success, some i, evs) →
    ∀ (frames : Vector FrameT FramesLen) (n : Nat), 0 < n → n ≤ 4 → (∀ j (h : j < 4), frames[j].getDataLength ≤ 8) →
    ∀ tx : Tx, tx.nonblock = Nonblocking socketType → tx.fdFrames = FdOn i.fd evs → (tx.mtu = 16 ∨ tx.mtu = 72) →
      n ≤ tx.room → n ≤ tx.queue →
      ∃ c ans w, i.sendCall frames n = .ok (some c) ∧ sendmmsg [] tx c = some ans ∧ i.write frames n ans = .ok w ∧
        w.result = .Success ∧ w.written = n

/-- C104: every message has the size of a CAN FD frame, so nothing is ever sent as a CAN 2.0 frame. -/
theorem C104_messages_partial (s : Iface) (frames : Vector FrameT FramesLen) (n : Nat) (h0 : 0 < n) (h4 : n ≤ 4) :
    ∃ c, s.sendCall frames n = .ok (some c) ∧ c.msgs.length = n ∧ ∀ b ∈ c.msgs, b.1 = 72 := by
  obtain ⟨c, -, hc, -, -, hsz, -⟩ := sendCall_ok s frames n ⟨0, 0⟩ h0 h4
  refine ⟨c, hc, ?_, fun b hb => ?_⟩
  · have := congrArg List.length hsz
    simpa using this
  · have : b.1 ∈ c.msgs.map (·.1) := List.mem_map_of_mem hb
    rw [hsz] at this
    exact (List.mem_replicate.1 this).2

/-- What the code asked for. -/
theorem fdOn_iff {m : Manager} {index : Nat} {name : String} {fc : Option (List Filter)} {num : Nat} {a : OpenAns} {i : Iface}
    {evs : List FdEv} (h : m.createInterface index name fc num a = .ok (.Success, some i, evs)) :
    FdOn i.fd evs = m.enable_can_fd := by
  unfold Manager.createInterface at h
  simp only [] at h
  split at h
  · cases h
  · rename_i hs
    obtain ⟨⟨r, call⟩, hc, h⟩ := Outcome.bind_eq_ok.1 h
    simp only [] at h
    split at h
    · cases h
    · split at h
      · cases h
      · cases h
        simp only [Iface.mk', FdOn]
        have hos : (openSocket name m.enable_can_fd m.receive_own a).2 =
            .opened a.socket :: (setupCalls m name a).map (.call a.socket) ∧
            (openSocket name m.enable_can_fd m.receive_own a).1 = a.socket := by
          rcases openSocket_cases (fun fd => ⟨fd, [], 0⟩) m name a with ⟨e, -⟩ | ⟨-, ⟨e, e'⟩ | ⟨cs, -, e⟩⟩
          · rw [e]; exact ⟨rfl, rfl⟩
          · rw [e] at hs; simp only at hs; omega
          · rw [e] at hs; simp only at hs; omega
        rw [hos.1, hos.2]
        cases hm : m.enable_can_fd with
        | true =>
          exact decide_eq_true (by simp [setupCalls, hm])
        | false =>
          refine decide_eq_false fun hmem => ?_
          rcases List.mem_append.1 hmem with h1 | h1
          · simp [setupCalls, hm] at h1
          · cases call <;> simp at h1

/-- C104, partial: an interface made by a manager can send exactly if the manager was told to use CAN FD and the network interface
supports it; otherwise every `write` fails. Missing: the other three configurations, for which the statement is false. -/
theorem C104_sent_iff_partial {m : Manager} {index : Nat} {name : String} {fc : Option (List Filter)} {num : Nat} {a : OpenAns}
    {i : Iface} {evs : List FdEv} (hi : m.createInterface index name fc num a = .ok (.Success, some i, evs))
    (frames : Vector FrameT FramesLen) (n : Nat) (h0 : 0 < n) (h4 : n ≤ 4) (tx : Tx) (hb : tx.nonblock = Nonblocking socketType)
    (hf : tx.fdFrames = FdOn i.fd evs) (hr : n ≤ tx.room) (hq : n ≤ tx.queue) :
    ∃ c ans w, i.sendCall frames n = .ok (some c) ∧ sendmmsg [] tx c = some ans ∧ i.write frames n ans = .ok w ∧
      (m.enable_can_fd = true ∧ tx.mtu = 72 → w.result = .Success ∧ w.written = n) ∧
      (¬ (m.enable_can_fd = true ∧ tx.mtu = 72) → w.result = .Failure ∧ w.written = 0) := by
  rw [fdOn_iff hi] at hf
  by_cases hfd : m.enable_can_fd = true ∧ tx.mtu = 72
  · obtain ⟨c, hc, h1, h2⟩ := C103_write_partial i frames n h0 h4 [] tx hb (hf.trans hfd.1) hfd.2
    cases ha : sendmmsg [] tx c with
    | none => have := (h1.1 ha).2; simp at this; omega
    | some ans =>
      obtain ⟨w, w1, w2, w3, w4, w5⟩ := h2 ans ha
      have hn : w.written = n := by rw [w3]; split <;> omega
      refine ⟨c, ans, w, hc, ha, w1, fun _ => ⟨?_, hn⟩, fun h => absurd hfd h⟩
      obtain ⟨-, w', -, e2, -, -, -, e5, e6⟩ := sendCall_ok i frames n ans h0 h4
      rw [w1] at e2
      cases e2
      have hres : 0 < ans.res ∧ ans.res.toNat = n := by
        rw [e5] at hn
        unfold queued at hn
        split at hn <;> omega
      rw [e6, if_neg (by omega), if_neg (by omega)]
  · obtain ⟨c, w, hc, hw, -, hsz, hdw, hwr, hres⟩ := sendCall_ok i frames n ⟨-1, 22⟩ h0 h4
    refine ⟨c, ⟨-1, 22⟩, w, hc, ?_, hw, fun h => absurd h hfd, fun _ => ⟨?_, ?_⟩⟩
    · unfold sendmmsg
      rw [hsz]
      exact sendAll_refused _ _ n tx (fun h => hfd ⟨hf ▸ h.1, h.2⟩) h0
    · rw [hres]; rfl
    · rw [hwr]; decide

/-- C104 is false of the code: without CAN FD, and with room for ten frames, not even a frame without data is sent. -/
theorem C104_full_statement_fails : ¬ C104_Statement := by
  intro h
  have hi : (⟨["can0"], false, false⟩ : Manager).createInterface 0 "can0" none 0 { socket := 3 } =
      .ok (.Success, some (Iface.mk' 0 "can0" 3), [.opened 3, .call 3 (.ifindex "can0"), .call 3 (.bind 1), .call 3 .timestamp,
        .call 3 .rxqOvfl, .call 3 .errFilter, .call 3 .soError, .call 3 (.filters (filterCall none 0 3))]) := by rfl
  have hf := fdOn_iff hi
  obtain ⟨c, ans, w, e1, e2, e3, e4, -⟩ := h _ _ _ _ _ _ _ _ hi (Vector.replicate 4 Frame.default) 1 (by decide) (by decide)
    (by intro j hj; simp [Frame.default, Frame.getDataLength, dlcToLength, dlcToLengthTable])
    ⟨Nonblocking socketType, _, 16, 10, 10⟩ rfl rfl (.inl rfl) (by decide) (by decide)
  obtain ⟨c', ans', w', f1, f2, f3, -, f4⟩ := C104_sent_iff_partial hi (Vector.replicate 4 Frame.default) 1 (by decide) (by decide)
    ⟨Nonblocking socketType, _, 16, 10, 10⟩ rfl rfl (by decide) (by decide)
  rw [e1] at f1; cases f1
  rw [e2] at f2; cases f2
  rw [e3] at f3; cases f3
  rw [(f4 (by simp)).1] at e4
  cases e4

end Uavcan.SocketCan
