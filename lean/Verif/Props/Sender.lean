import Verif.Spec.Sender
import Verif.Props.Stream
import Verif.Props.TxQueue

/-!
# C133: a transmit queue that is emptied by `write`
-/

namespace Uavcan.SocketCan
open Spec Can

theorem qrun_append {mtu : Nat} {k : Kind} {ops ops' : List (QOp mtu)} {l out mid out' left : List (Frame mtu)} (h : QRun k ops l out mid)
    (h' : QRun k ops' mid out' left) : QRun k (ops ++ ops') l (out ++ out') left := by
  induction h with
  | done l => exact h'
  | push _ ih => exact .push (ih h')
  | pop ht _ ih => exact .pop ht (ih h')
  | empty _ ih => exact .empty (ih h')

theorem qrun_pops {mtu : Nat} (n : Nat) (l : List (Frame mtu)) (h : n ≤ l.length) :
    QRun .multiset (List.replicate n .pop) l (l.take n) (l.drop n) := by
  induction n generalizing l with
  | zero => exact .done l
  | succ n ih =>
    cases l with
    | nil => exact absurd h (by simp)
    | cons f l => exact .pop rfl (ih l (by simpa using h))

theorem step_pending {bus : CanfdFrame → RxMsg → Prop} {b c : Stream} (h : Stream.Step bus b c) :
    c.pending = b.pending.drop (b.pending.length - c.pending.length) := by
  cases h with
  | write arr ans o ms hp harr hv hw hm =>
    show b.pending.drop o.written = _
    simp only [List.length_drop]
    by_cases h : o.written ≤ b.pending.length
    · rw [Nat.sub_sub_self h]
    · rw [List.drop_eq_nil_of_le (by omega), List.drop_eq_nil_of_le (by omega)]
  | fail e he => simp
  | read out ans sock o h1 h2 => simp

/-- What holds at all times: the queue is what C126 speaks of, and what was taken from it is what C110 speaks of. -/
def SenderInv (good : FrameT → Prop) (ops : List (QOp 64)) (c : Stream) : Prop :=
  ∃ out, QRun .multiset ops [] out c.pending ∧ StreamInv (out ++ c.pending) c ∧ ∀ f ∈ out ++ c.pending, good f

theorem senderInv_reaches {bus : CanfdFrame → RxMsg → Prop} {good : FrameT → Prop} (hb : Faithful bus good) {tx rx : Iface}
    {ops : List (QOp 64)} {c : Stream} (h : Sender.Reaches bus (.start tx rx []) ops c) (hg : ∀ f ∈ pushed ops, good f) : SenderInv good ops c := by
  induction h with
  | refl => exact ⟨[], .done [], streamInv_reaches hb (good := good) (fun f hf => by cases hf) (.refl _), fun f hf => by cases hf⟩
  | @push ops b f _ ih =>
    have hp : pushed (ops ++ [QOp.push f]) = pushed ops ++ [f] := by simp [pushed]
    rw [hp] at hg
    obtain ⟨out, hq, ⟨he, x, y, hfs, hx, hy⟩, hgood⟩ := ih fun g hm => hg g (List.mem_append_left _ hm)
    have hout : out = x ++ y := List.append_cancel_right hfs
    refine ⟨out, ?_, ⟨he, x, y, by rw [hout], hx, hy⟩, fun g hm => ?_⟩
    · have := qrun_append hq (.push (.done (Kind.multiset.insert f b.pending)))
      rwa [List.append_nil] at this
    · rcases List.mem_append.1 hm with hm | hm
      · exact hgood g (List.mem_append_left _ hm)
      · rcases (insertUpper_mem f g b.pending).1 hm with rfl | hm
        · exact hg g (by simp)
        · exact hgood g (List.mem_append_right _ hm)
  | @step ops b c _ st ih =>
    have hp : pushed (ops ++ List.replicate (b.pending.length - c.pending.length) QOp.pop) = pushed ops := by
      simp [pushed, List.filterMap_append]
    rw [hp] at hg
    obtain ⟨out, hq, hs, hgood⟩ := ih hg
    have hd := step_pending st
    have e : (out ++ b.pending.take (b.pending.length - c.pending.length)) ++ c.pending = out ++ b.pending := by
      rw [List.append_assoc]
      conv => lhs; rhs; rhs; rw [hd]
      rw [List.take_append_drop]
    refine ⟨_, ?_, by rw [e]; exact streamInv_step hb hgood hs st, by rw [e]; exact hgood⟩
    have := qrun_append hq (qrun_pops (b.pending.length - c.pending.length) b.pending (by omega))
    rw [← hd] at this
    exact this

theorem paired_filter {α β : Type} {P : α → β → Prop} {p : α → Bool} {q : β → Bool} (hpq : ∀ a b, P a b → p a = q b) :
    ∀ {as : List α} {bs : List β}, Paired P as bs → Paired P (as.filter p) (bs.filter q) := by
  intro as
  induction as with
  | nil =>
    intro bs h
    have : bs = [] := List.eq_nil_of_length_eq_zero h.1.symm
    subst this
    exact h
  | cons a as ih =>
    intro bs h
    cases bs with
    | nil => exact absurd h.1 (by simp)
    | cons b bs =>
      have hab : P a b := h.2 0 a b rfl rfl
      have ht : Paired P as bs := ⟨by simpa using h.1, fun i x y hx hy => h.2 (i + 1) x y (by simpa using hx) (by simpa using hy)⟩
      rw [List.filter_cons, List.filter_cons, hpq a b hab]
      split
      · have h1 : Paired P [a] [b] := ⟨rfl, fun i x y hx hy => by
          have hi : i < 1 := by simpa using (List.getElem?_eq_some_iff.1 hx).1
          have : i = 0 := by omega
          subst this
          cases hx
          cases hy
          exact hab⟩
        exact paired_append h1 (ih ht)
      · exact ih ht

theorem same_ofId (i : BitVec 29) (f g : FrameT) (h : Same f g) : (f.id.setWidth 29 == i) = (g.id.setWidth 29 == i) := by
  have : f.id.setWidth 29 = g.id.setWidth 29 := by
    apply BitVec.eq_of_toNat_eq
    rw [BitVec.toNat_setWidth, BitVec.toNat_setWidth]
    exact h.1
  rw [this]

/-- What the sender, the queue and the receiver do, told without the model. -/
theorem sender_use {bus : CanfdFrame → RxMsg → Prop} {good : FrameT → Prop} (hb : Faithful bus good) {tx rx : Iface}
    {ops : List (QOp 64)} {c : Stream} (h : Sender.Reaches bus (.start tx rx []) ops c) (hg : ∀ f ∈ pushed ops, good f) :
    Paired Same ((wanted false ops []).1.take c.got.length) c.got ∧
    (wanted false ops []).1.length = c.got.length + c.sock.queue.length ∧
    (∀ i, ofId i c.pending = ofId i (wanted false ops []).2) ∧
    (∀ i, ∃ n, Paired Same ((ofId i (pushed ops)).take n) (ofId i c.got)) ∧
    ∀ out ans sock o, c.pending = [] → c.sock.answer = some (ans, sock) → c.rx.read out ans = .ok o → o.result = .SuccessNothing →
      Paired Same (wanted false ops []).1 c.got ∧ ∀ i, Paired Same (ofId i (pushed ops)) (ofId i c.got) := by
  obtain ⟨out, hq, hs, hgood⟩ := senderInv_reaches hb h hg
  obtain ⟨h1, h2, h3⟩ := streamInv_use hs
  obtain ⟨-, x, y, hfs, hx, hy⟩ := hs
  have hxy : out = x ++ y := List.append_cancel_right hfs
  obtain ⟨hw, hsort⟩ := sorted_run false (.inl ⟨rfl, rfl⟩) hq [] .empty
  rw [← hw]
  have hkey : ∀ (i : BitVec 29) (g : FrameT), (g.id.setWidth 29 == i) = (key g == i.toNat) := by
    intro i g
    rw [Bool.eq_iff_iff, beq_iff_eq, beq_iff_eq, ← BitVec.toNat_inj, BitVec.toNat_setWidth]
    exact Iff.rfl
  have hleft : ∀ i, ofId i c.pending = ofId i (wanted false ops []).2 := by
    intro i
    have e : (fun g : FrameT => g.id.setWidth 29 == i) = fun g => key g == i.toNat := funext (hkey i)
    unfold ofId
    rw [e]
    exact hsort.same i.toNat
  have hall : ∀ i, ofId i (out ++ c.pending) = ofId i (pushed ops) := by
    intro i
    have := C126_first_come_partial ops [] i
    rw [List.nil_append, ← hw] at this
    rw [show ofId i (pushed ops) = _ from this.symm]
    unfold ofId at hleft ⊢
    rw [List.filter_append, List.filter_append, hleft i]
  have hto : out.take c.got.length = x := by rw [hxy, ← hx.1, List.take_left]
  refine ⟨by rw [hto]; exact hx, by rw [hxy, List.length_append, hx.1, hy.1], hleft, fun i => ⟨(ofId i x).length, ?_⟩, fun out' ans sock o hp a1 a2 a3 => ?_⟩
  · rw [← hall i, hxy, List.append_assoc]
    have : ofId i (x ++ (y ++ c.pending)) = ofId i x ++ ofId i (y ++ c.pending) := List.filter_append ..
    rw [this, List.take_left]
    exact paired_filter (same_ofId i) hx
  · have := h3 out' ans sock o hp a1 a2 a3
    rw [hp, List.append_nil] at this
    refine ⟨this, fun i => ?_⟩
    rw [← hall i, hp, List.append_nil]
    exact paired_filter (same_ofId i) this

/-! ## C133 -/

/-- C133: a queue emptied by `write`, on a CAN FD bus. Whatever is queued whenever, whatever the kernel takes and refuses, and whenever the receiver reads: the frames got are
the first ones of those that should have been sent, each the best of those waiting at its time; between them and the queue are those that wait in the receiver's
socket; of every identifier, the queue holds what has not been sent and the receiver got the first ones queued, in order; and when all is sent and `read` says
`SuccessNothing`, all of them. -/
theorem C133_bus {tx rx : Iface} {ops : List (QOp 64)} {c : Stream} (h : Sender.Reaches OnBus (.start tx rx []) ops c)
    (hg : ∀ f ∈ pushed ops, f.dlc ≤ 8 ∧ canId29 f.id ≠ 0) :
    Paired Same ((wanted false ops []).1.take c.got.length) c.got ∧
    (wanted false ops []).1.length = c.got.length + c.sock.queue.length ∧
    (∀ i, ofId i c.pending = ofId i (wanted false ops []).2) ∧
    (∀ i, ∃ n, Paired Same ((ofId i (pushed ops)).take n) (ofId i c.got)) ∧
    ∀ out ans sock o, c.pending = [] → c.sock.answer = some (ans, sock) → c.rx.read out ans = .ok o → o.result = .SuccessNothing →
      Paired Same (wanted false ops []).1 c.got ∧ ∀ i, Paired Same (ofId i (pushed ops)) (ofId i c.got) :=
  sender_use faithful_bus h hg

/-- C133: the same on a virtual bus, there with frames of every length. -/
theorem C133_vcan {tx rx : Iface} {ops : List (QOp 64)} {c : Stream} (h : Sender.Reaches OnVcan (.start tx rx []) ops c)
    (hg : ∀ f ∈ pushed ops, f.dlc < 256 ∧ canId29 f.id ≠ 0) :
    Paired Same ((wanted false ops []).1.take c.got.length) c.got ∧
    (wanted false ops []).1.length = c.got.length + c.sock.queue.length ∧
    (∀ i, ofId i c.pending = ofId i (wanted false ops []).2) ∧
    (∀ i, ∃ n, Paired Same ((ofId i (pushed ops)).take n) (ofId i c.got)) ∧
    ∀ out ans sock o, c.pending = [] → c.sock.answer = some (ans, sock) → c.rx.read out ans = .ok o → o.result = .SuccessNothing →
      Paired Same (wanted false ops []).1 c.got ∧ ∀ i, Paired Same (ofId i (pushed ops)) (ofId i c.got) :=
  sender_use faithful_vcan h hg

theorem sender_more {bus : CanfdFrame → RxMsg → Prop} {a b c : Stream} {ops : List (QOp 64)} (h : Sender.Reaches bus a ops b) (h' : Stream.Reaches bus b c) :
    ∃ n, Sender.Reaches bus a (ops ++ List.replicate n .pop) c := by
  induction h' with
  | refl => exact ⟨0, by simpa using h⟩
  | @snoc b' c' _ st ih =>
    obtain ⟨n, hn⟩ := ih
    refine ⟨n + (b'.pending.length - c'.pending.length), ?_⟩
    have := Sender.Reaches.step hn st
    rwa [List.append_assoc, List.replicate_append_replicate] at this

/-- C133: the queue can always be emptied and everything be received, without queueing more, and then each identifier's frames are the receiver's, in order. -/
theorem C133_can_finish {tx rx : Iface} {ops : List (QOp 64)} {c : Stream} (h : Sender.Reaches OnBus (.start tx rx []) ops c)
    (hg : ∀ f ∈ pushed ops, f.dlc ≤ 8 ∧ canId29 f.id ≠ 0) : ∃ n c', Sender.Reaches OnBus (.start tx rx []) (ops ++ List.replicate n .pop) c' ∧
      c'.pending = [] ∧ ∀ i, Paired Same (ofId i (pushed ops)) (ofId i c'.got) := by
  obtain ⟨out, -, ⟨he, -⟩, hgood⟩ := senderInv_reaches faithful_bus h hg
  obtain ⟨c', h1, h2, h3⟩ := C110_can_finish c (fun f hf => by have := (hgood f (List.mem_append_right _ hf)).1; omega) he
  obtain ⟨n, hn⟩ := sender_more h h1
  have hp : pushed (ops ++ List.replicate n QOp.pop) = pushed ops := by simp [pushed, List.filterMap_append]
  refine ⟨n, c', hn, h2, fun i => ?_⟩
  obtain ⟨out', hq', ⟨-, x, y, hfs, hx, hy⟩, -⟩ := senderInv_reaches faithful_bus hn (by rw [hp]; exact hg)
  rw [h3] at hy
  have hy0 : y = [] := List.eq_nil_of_length_eq_zero hy.1
  rw [h2, hy0, List.append_nil, List.append_nil, List.append_nil] at hfs
  obtain ⟨hw, hsort⟩ := sorted_run false (.inl ⟨rfl, rfl⟩) hq' [] .empty
  rw [h2] at hsort
  have hleft : (wanted false (ops ++ List.replicate n QOp.pop) []).2 = [] := hsort.nil
  have := C126_first_come_partial (ops ++ List.replicate n QOp.pop) [] i
  rw [List.nil_append, ← hw, hleft, List.append_nil, hp] at this
  rw [show ofId i (pushed ops) = _ from this.symm, hfs]
  exact paired_filter (same_ofId i) hx

/-- C133: a frame of higher priority that is queued second is received first. -/
example (tx rx : Iface) : ∃ ops c, Sender.Reaches OnBus (.start tx rx []) ops c ∧ pushed ops = [smallFrame 9, smallFrame 5] ∧ Paired Same [smallFrame 5, smallFrame 9] c.got := by
  have h0 := Sender.Reaches.push (smallFrame 5) (.push (smallFrame 9) (.refl (bus := OnBus) (a := .start tx rx [])))
  obtain ⟨c', h1, h2, h3⟩ := C110_can_finish ⟨tx, [smallFrame 5, smallFrame 9], ⟨[], none⟩, rx, []⟩
    (fun f hf => by
      simp only [List.mem_cons, List.not_mem_nil, or_false] at hf
      rcases hf with rfl | rfl <;> decide) (fun e h => by cases h)
  have hs : StreamInv [smallFrame 5, smallFrame 9] c' := streamInv_reaches faithful_bus (fun f hf => by
      simp only [List.mem_cons, List.not_mem_nil, or_false] at hf
      rcases hf with rfl | rfl <;> decide) h1
  obtain ⟨n, hn⟩ := sender_more h0 h1
  refine ⟨_, c', hn, by simp [pushed], ?_⟩
  obtain ⟨-, x, y, hfs, hx, hy⟩ := hs
  rw [h3] at hy
  have hy0 : y = [] := List.eq_nil_of_length_eq_zero hy.1
  rw [h2, hy0, List.append_nil, List.append_nil] at hfs
  rw [hfs]
  exact hx

end Uavcan.SocketCan
