import Verif.Spec.SocketSend
import Verif.Lemmas.SocketCan
import Verif.Lemmas.SocketManager

/-!
# Lemmas about sending and receiving messages
-/

namespace Uavcan.SocketCan
open Spec

/-- The socket and the network interface take CAN FD frames. -/
def Tx.Fd (tx : Tx) : Prop := tx.fdFrames = true ∧ tx.mtu = 72

theorem sendOne_fd {tx : Tx} (h : Tx.Fd tx) (hb : tx.nonblock = false) :
    sendOne false tx 72 = if tx.room = 0 then .sleeps else if tx.queue = 0 then .refused 105 else .taken := by
  unfold sendOne
  rw [if_neg (by rw [Decidable.not_not]; exact Or.inr ⟨rfl, h.1, h.2⟩)]
  simp only [hb, Bool.or_self]
  rfl

theorem sendOne_not_fd {tx : Tx} (h : ¬ Tx.Fd tx) (dw : Bool) : sendOne dw tx 72 = .refused 22 := by
  unfold sendOne
  rw [if_pos]
  rintro (h1 | h1)
  · omega
  · exact h ⟨h1.2.1, h1.2.2⟩

theorem sendAll_nil (dw : Bool) (ws : List Nat) (tx : Tx) (d : Nat) :
    sendAll dw ws tx [] d = some { res := d, errno := 0 } := by rw [sendAll.eq_def]

/-- The send buffer fills before the transmit queue. -/
theorem sendAll_room (ws : List Nat) (n : Nat) : ∀ (tx : Tx) (d r : Nat), Tx.Fd tx → tx.nonblock = false → tx.room ≤ tx.queue →
    r = tx.room + ws.sum →
    (n ≤ r → sendAll false ws tx (List.replicate n 72) d = some { res := ((d + n : Nat) : Int), errno := 0 }) ∧
    (r < n → sendAll false ws tx (List.replicate n 72) d = none) := by
  have pass : ∀ (ws : List Nat) (n : Nat) (tx : Tx) (d : Nat), Tx.Fd tx → tx.nonblock = false → tx.room ≤ tx.queue → tx.room ≠ 0 →
      sendAll false ws tx (List.replicate (n + 1) 72) d =
        sendAll false ws { tx with room := tx.room - 1, queue := tx.queue - 1 } (List.replicate n 72) (d + 1) := by
    intro ws n tx d hf hb hq h0
    rw [List.replicate_succ, sendAll.eq_def]; simp only []
    rw [sendOne_fd hf hb, if_neg h0, if_neg (show tx.queue ≠ 0 by omega)]
  induction ws generalizing n with
  | nil =>
    induction n with
    | zero => intro tx d r _ _ _ _; exact ⟨fun _ => by rw [List.replicate_zero, sendAll_nil]; rfl, fun h => by omega⟩
    | succ n ih =>
      intro tx d r hf hb hq hr
      rw [List.sum_nil] at hr
      by_cases h0 : tx.room = 0
      · refine ⟨fun h => by omega, fun _ => ?_⟩
        rw [List.replicate_succ, sendAll.eq_def]; simp only []
        rw [sendOne_fd hf hb, if_pos h0]
      · rw [pass [] n tx d hf hb hq h0]
        obtain ⟨i1, i2⟩ := ih { tx with room := tx.room - 1, queue := tx.queue - 1 } (d + 1) (r - 1) hf hb (by simp only; omega)
          (by simp only [List.sum_nil]; omega)
        refine ⟨fun h => ?_, fun h => i2 (by omega)⟩
        rw [i1 (by omega), show d + 1 + n = d + (n + 1) by omega]
  | cons w ws iw =>
    induction n with
    | zero => intro tx d r _ _ _ _; exact ⟨fun _ => by rw [List.replicate_zero, sendAll_nil]; rfl, fun h => by omega⟩
    | succ n ih =>
      intro tx d r hf hb hq hr
      rw [List.sum_cons] at hr
      by_cases h0 : tx.room = 0
      · rw [List.replicate_succ, sendAll.eq_def]; simp only []
        rw [sendOne_fd hf hb, if_pos h0, ← List.replicate_succ]
        exact iw (n + 1) { tx with room := tx.room + w, queue := tx.queue + w } d r hf hb (by simp only; omega)
          (by simp only; omega)
      · rw [pass (w :: ws) n tx d hf hb hq h0]
        obtain ⟨i1, i2⟩ := ih { tx with room := tx.room - 1, queue := tx.queue - 1 } (d + 1) (r - 1) hf hb (by simp only; omega)
          (by simp only [List.sum_cons]; omega)
        refine ⟨fun h => ?_, fun h => i2 (by omega)⟩
        rw [i1 (by omega), show d + 1 + n = d + (n + 1) by omega]

/-- The transmit queue fills before the send buffer. -/
theorem sendAll_queue (ws : List Nat) (n : Nat) : ∀ (tx : Tx) (d : Nat), Tx.Fd tx → tx.nonblock = false → tx.queue < tx.room →
    (n ≤ tx.queue → sendAll false ws tx (List.replicate n 72) d = some { res := ((d + n : Nat) : Int), errno := 0 }) ∧
    (tx.queue < n → d + tx.queue = 0 → sendAll false ws tx (List.replicate n 72) d = some { res := -1, errno := 105 }) ∧
    (tx.queue < n → d + tx.queue ≠ 0 →
      sendAll false ws tx (List.replicate n 72) d = some { res := ((d + tx.queue : Nat) : Int), errno := 0 }) := by
  induction n with
  | zero =>
    intro tx d _ _ _
    exact ⟨fun _ => by rw [List.replicate_zero, sendAll_nil]; rfl, fun h => by omega, fun h => by omega⟩
  | succ n ih =>
    intro tx d hf hb hq
    rw [List.replicate_succ, sendAll.eq_def]; simp only []
    rw [sendOne_fd hf hb, if_neg (show tx.room ≠ 0 by omega)]
    by_cases h0 : tx.queue = 0
    · rw [if_pos h0]
      refine ⟨fun h => by omega, fun _ h => ?_, fun _ h => ?_⟩
      · simp only []
        rw [if_pos (by omega)]
      · simp only []
        rw [if_neg (by omega), h0, Nat.add_zero]
    · rw [if_neg h0]
      simp only []
      obtain ⟨i1, i2, i3⟩ := ih { tx with room := tx.room - 1, queue := tx.queue - 1 } (d + 1) hf hb (by simp only; omega)
      refine ⟨fun h => ?_, fun _ h => by omega, fun h _ => ?_⟩
      · rw [i1 (by simp only; omega), show d + 1 + n = d + (n + 1) by omega]
      · rw [i3 (by simp only; omega) (by simp only; omega)]
        simp only []
        rw [show d + 1 + (tx.queue - 1) = d + tx.queue by omega]

/-- CAN FD frames that are not taken. -/
theorem sendAll_refused (dw : Bool) (ws : List Nat) (n : Nat) (tx : Tx) (h : ¬ Tx.Fd tx) (h0 : 0 < n) :
    sendAll dw ws tx (List.replicate n 72) 0 = some { res := -1, errno := 22 } := by
  obtain ⟨k, rfl⟩ : ∃ k, n = k + 1 := ⟨n - 1, by omega⟩
  rw [List.replicate_succ, sendAll.eq_def]; simp only []; rw [sendOne_not_fd h]
  rfl

/-- Sizes and flags of the call of `write`. -/
theorem sendCall_ok (s : Iface) (frames : Vector FrameT FramesLen) (n : Nat) (ans : SysAns) (h0 : 0 < n) (h4 : n ≤ 4) :
    ∃ c w, s.sendCall frames n = .ok (some c) ∧ s.write frames n ans = .ok w ∧ w.submitted = c.msgs.map (·.2) ∧
      c.msgs.map (·.1) = List.replicate n 72 ∧ DontWait c.flags = false ∧ w.written = queued ans ∧
      w.result = if ans.res ≤ 0 then (if ans.errno = ENOBUFS ∨ ans.errno = EAGAIN then .BufferFull else .Failure)
                    else if ans.res.toNat < n then .SuccessPartial else .Success := by
  obtain ⟨bufs', h1, -, h2⟩ := write_ok s frames n ans h0 h4
  refine ⟨{ msgs := (bufs'.toList.take n).map fun f => (CanfdFrameSize, f), flags := 0#32 }, _, ?_, h2, ?_, ?_, (show DontWait 0#32 = false by decide), rfl, rfl⟩
  · simp only [Iface.sendCall, if_neg (show n ≠ 0 by omega), h1]
    rfl
  · simp [List.map_map, Function.comp_def]
  · simp only [List.map_map, Function.comp_def, CanfdFrameSize]
    rw [List.map_const']
    simp [h4]

/-- Nothing waits for messages. -/
theorem recvAll_dontwait (nb : Bool) (ws : List (List RxMsg)) (n : Nat) : ∀ (q got : List RxMsg), 0 < got.length + n →
    recvAll true nb ws q n got = some (if got ++ q.take n = [] then { res := -1, errno := 11, msgs := [] }
      else { res := (got ++ q.take n).length, errno := 0, msgs := got ++ q.take n }) := by
  induction n with
  | zero =>
    intro q got h
    rw [recvAll.eq_def]; simp only []; rw [List.take_zero, List.append_nil, if_neg (by intro e; rw [e] at h; simp at h)]
  | succ n ih =>
    intro q got h
    cases q with
    | nil =>
      rw [recvAll.eq_def]
      simp only [Bool.true_or, if_true, List.take_nil, List.append_nil]
    | cons m ms =>
      rw [recvAll.eq_def]; simp only []; rw [ih ms (got ++ [m]) (by simp; omega), List.take_succ_cons, List.append_assoc]
      rfl

end Uavcan.SocketCan
