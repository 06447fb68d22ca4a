import Verif.Spec.Stream
import Verif.Props.Drain

/-!
# C110: what one application writes, another reads
-/

namespace Uavcan.SocketCan
open Spec Can

section
variable {α β γ : Type}

theorem paired_append {P : α → β → Prop} {a b : List α} {x y : List β} (h : Paired P a x) (h' : Paired P b y) :
    Paired P (a ++ b) (x ++ y) := by
  refine ⟨by simp [h.1, h'.1], fun i m f hm hf => ?_⟩
  by_cases hi : i < a.length
  · rw [List.getElem?_append_left hi] at hm
    rw [List.getElem?_append_left (by rw [← h.1]; exact hi)] at hf
    exact h.2 i m f hm hf
  · rw [List.getElem?_append_right (by omega)] at hm
    rw [List.getElem?_append_right (by have := h.1; omega), ← h.1] at hf
    exact h'.2 _ m f hm hf

theorem paired_split {P : α → β → Prop} {b : List α} {x y : List β} (h : Paired P b (x ++ y)) :
    Paired P (b.take x.length) x ∧ Paired P (b.drop x.length) y := by
  have hl := h.1
  rw [List.length_append] at hl
  refine ⟨⟨by rw [List.length_take]; omega, fun i m f hm hf => ?_⟩, ⟨by rw [List.length_drop]; omega, fun i m f hm hf => ?_⟩⟩
  · have hi : i < x.length := (List.getElem?_eq_some_iff.1 hf).1
    rw [List.getElem?_take_of_lt hi] at hm
    exact h.2 i m f hm (by rw [List.getElem?_append_left hi]; exact hf)
  · rw [List.getElem?_drop] at hm
    refine h.2 _ m f hm ?_
    rw [List.getElem?_append_right (by omega), Nat.add_sub_cancel_left]
    exact hf

theorem paired_trans {P : α → β → Prop} {Q : β → γ → Prop} {R : α → γ → Prop} {a : List α} {b : List β} {c : List γ}
    (h : Paired P a b) (h' : Paired Q b c) (hr : ∀ x y z, P x y → Q y z → R x z) : Paired R a c := by
  refine ⟨h.1.trans h'.1, fun i x z hx hz => ?_⟩
  have hi : i < b.length := by rw [← h.1]; exact (List.getElem?_eq_some_iff.1 hx).1
  have hb : b[i]? = some b[i] := List.getElem?_eq_getElem hi
  exact hr x _ z (h.2 i x _ hx hb) (h'.2 i _ z hb hz)

end

/-- What `write` makes of a frame (C37). -/
def Submits (f : FrameT) (w : CanfdFrame) : Prop :=
  IsExtData w.can_id = true ∧ canId29 w.can_id = canId29 f.id ∧
  (∀ k (h : k < 64), k < f.getDataLength → w.data[k] = f.data[k]) ∧ w.len.toNat = f.dlc

/-- A message that waits for the receiver stands for a frame: it will be delivered, as the same frame. -/
def Brings (f : FrameT) (m : RxMsg) : Prop := Delivers m.frame.can_id = true ∧ ∀ g, FromMsg m g → Same f g

/-- Frames with this property come through unharmed. -/
def Faithful (bus : CanfdFrame → RxMsg → Prop) (good : FrameT → Prop) : Prop :=
  (∀ f, good f → f.dlc < 256) ∧ ∀ f w m, good f → Submits f w → bus w m → Brings f m

theorem submits_delivers {f : FrameT} {w : CanfdFrame} (h : Submits f w) (hz : canId29 f.id ≠ 0) : Delivers w.can_id = true := by
  obtain ⟨x1, x2, -⟩ := h
  have : Delivers w.can_id = true ↔ canId29 w.can_id ≠ 0 := by
    simp only [IsExtData] at x1
    simp only [Delivers]
    revert x1
    cases w.can_id.getLsbD 29 <;> simp
  rw [this, x2]
  exact hz

theorem faithful_vcan : Faithful OnVcan fun f => f.dlc < 256 ∧ canId29 f.id ≠ 0 := by
  refine ⟨fun f h => h.1, ?_⟩
  rintro f w m ⟨hd, hz⟩ hw ⟨hc, rfl⟩
  refine ⟨submits_delivers hw hz, ?_⟩
  rintro g ⟨h1, h2, h3⟩
  obtain ⟨-, x2, x3, x4⟩ := hw
  refine ⟨by rw [h1, x2], by rw [h2, x4], fun k hk hl => ?_⟩
  have hg : g.getDataLength = f.getDataLength := by simp only [Frame.getDataLength]; rw [h2, x4]
  rw [h3 k hk (by rw [hg]; exact hl) (by simp [RxMsg.room, hc]; omega), x3 k hk hl]

theorem fdRound_small {n m : Nat} (hn : n ≤ 8) (h : IsLeastAtLeast FdLength n m) : m = n := by
  have := h.2.2 n (.inl hn) (Nat.le_refl n)
  have := h.2.1
  omega

theorem dlcToLength_small {d : Nat} (h : d ≤ 8) : dlcToLength d = d := by
  have : ∀ d : Fin 9, dlcToLength d.val = d.val := by decide
  exact this ⟨d, Nat.lt_succ_of_le h⟩

theorem faithful_bus : Faithful OnBus fun f => f.dlc ≤ 8 ∧ canId29 f.id ≠ 0 := by
  refine ⟨fun f h => by omega, ?_⟩
  rintro f w m ⟨hd, hz⟩ hw ⟨hc, hi, hl, hdat⟩
  refine ⟨by rw [hi]; exact submits_delivers hw hz, ?_⟩
  rintro g ⟨h1, h2, h3⟩
  obtain ⟨-, x2, x3, x4⟩ := hw
  rw [x4] at hl hdat
  have hml := fdRound_small hd hl
  have hg : g.getDataLength = f.getDataLength := by simp only [Frame.getDataLength]; rw [h2, hml]
  refine ⟨by rw [h1, hi, x2], by rw [h2, hml], fun k hk hkl => ?_⟩
  have hkd : k < f.dlc := by
    simp only [Frame.getDataLength] at hkl
    rwa [dlcToLength_small hd] at hkl
  rw [h3 k hk (by rw [hg]; exact hkl) (by simp [RxMsg.room, hc]; omega), hdat k hk hkd, x3 k hk hkl]

/-- The frames to be sent are those got, those that wait, and those not yet sent, in this order. -/
def StreamInv (fs : List FrameT) (c : Stream) : Prop :=
  RealErr c.sock ∧ ∃ a b, fs = a ++ b ++ c.pending ∧ Paired Same a c.got ∧ Paired Brings b c.sock.queue

theorem filter_brings {b : List FrameT} {q : List RxMsg} (h : Paired Brings b q) :
    q.filter (fun m => Delivers m.frame.can_id) = q := by
  apply List.filter_eq_self.2
  intro m hm
  obtain ⟨i, hi, rfl⟩ := List.getElem_of_mem hm
  exact (h.2 i _ _ (List.getElem?_eq_getElem (by rw [h.1]; exact hi)) (List.getElem?_eq_getElem hi)).1

theorem write_submits (s : Iface) (arr : Vector FrameT FramesLen) (p : List FrameT) (ans : SysAns) (hp : p ≠ [])
    (ha : ∀ i, i < 4 → i < p.length → arr[i]? = p[i]?) (hv : ValidSend (min 4 p.length) ans) (hd : ∀ f ∈ p, f.dlc < 256) :
    ∃ o, s.write arr (min 4 p.length) ans = .ok o ∧ o.written = queued ans ∧ Paired Submits (p.take 4) o.submitted := by
  have hlen := List.length_pos_iff.2 hp
  have harr : ∀ j (hj : j < 4) (hjp : j < p.length), arr[j]'hj = p[j] := by
    intro j hj hjp
    have := ha j hj hjp
    rw [Vector.getElem?_eq_getElem (by exact hj), List.getElem?_eq_getElem hjp] at this
    exact Option.some.inj this
  obtain ⟨o, h1, h2, h3⟩ := C37_wire_partial s (min 4 p.length) arr ans (by omega) (by omega)
    (fun j hj hn => by rw [harr j hj (by omega)]; exact hd _ (List.getElem_mem _))
  obtain ⟨g, hg⟩ : ∃ g : Group, g = ⟨[s]⟩ := ⟨_, rfl⟩
  obtain ⟨r, k1, -, -, -, -, k2, -⟩ := C36_write_result_partial ⟨[s]⟩ 0 (min 4 p.length) 0 arr ans (by simp) (by omega) (by omega) hv
  obtain ⟨r', ri, l1, l2, -, -, l3, -⟩ := C37_group_partial ⟨[s]⟩ 0 (min 4 p.length) 0 arr ans s rfl (by omega) (by omega)
  rw [k1] at l1
  cases l1
  rw [h1] at l2
  cases l2
  refine ⟨o, h1, by rw [← l3, k2], by rw [h2, List.length_take], fun i f w hf hw => ?_⟩
  have hi : i < o.submitted.length := (List.getElem?_eq_some_iff.1 hw).1
  rw [List.getElem?_eq_getElem hi] at hw
  cases hw
  have hi4 : i < 4 := by omega
  have hip : i < p.length := by omega
  rw [List.getElem?_take_of_lt hi4, List.getElem?_eq_getElem hip] at hf
  cases hf
  obtain ⟨x1, x2, x3, x4, -⟩ := h3 i hi4 hi
  rw [harr i hi4 hip] at x2 x3 x4
  exact ⟨x1, x2, x3, x4⟩

theorem paired_take {α β : Type} {P : α → β → Prop} {a : List α} {b : List β} (h : Paired P a b) (n : Nat) :
    Paired P (a.take n) (b.take n) := by
  refine ⟨by simp [h.1], fun i x y hx hy => ?_⟩
  have hi : i < n := by
    have := (List.getElem?_eq_some_iff.1 hx).1
    rw [List.length_take] at this
    omega
  rw [List.getElem?_take_of_lt hi] at hx hy
  exact h.2 i x y hx hy

theorem queued_le {n : Nat} {ans : SysAns} (h : ValidSend n ans) : queued ans ≤ n := by
  unfold queued
  rcases h with h | h <;> split <;> omega

theorem streamInv_step {bus : CanfdFrame → RxMsg → Prop} {good : FrameT → Prop} (hb : Faithful bus good) {fs : List FrameT}
    (hg : ∀ f ∈ fs, good f) {c c' : Stream} (h : StreamInv fs c) (st : Stream.Step bus c c') : StreamInv fs c' := by
  obtain ⟨he, a, b, hfs, ha, hq⟩ := h
  cases st with
  | write arr ans o ms hp harr hv hw hm =>
    have hgood : ∀ f ∈ c.pending, good f := fun f hf => hg f (by rw [hfs]; exact List.mem_append_right _ hf)
    obtain ⟨o', h1, h2, h3⟩ := write_submits c.tx arr c.pending ans hp harr hv fun f hf => hb.1 f (hgood f hf)
    rw [hw] at h1
    cases h1
    have hle := queued_le hv
    have h3' := paired_take h3 (queued ans)
    rw [List.take_take, Nat.min_eq_left (by omega)] at h3'
    refine ⟨he, a, b ++ c.pending.take (queued ans), ?_, ha, paired_append hq ?_⟩
    · rw [hfs]
      simp only [List.append_assoc, h2, List.take_append_drop]
    · refine ⟨h3'.1.trans hm.1, fun i f m hf hm' => ?_⟩
      have hi : i < (o.submitted.take (queued ans)).length := by rw [← h3'.1]; exact (List.getElem?_eq_some_iff.1 hf).1
      have hwi := List.getElem?_eq_getElem hi
      exact hb.2 f _ m (hgood f (List.mem_of_mem_take (List.mem_of_getElem? hf))) (h3'.2 i f _ hf hwi) (hm.2 i _ m hwi hm')
  | fail e hne => exact ⟨fun e' h => (by cases h; exact hne), a, b, hfs, ha, hq⟩
  | read out ans sock o h1 h2 =>
    obtain ⟨ans', r1, o', x1, x2, x3, t, x4, x5, -⟩ := read_once c.sock he c.rx out
    rw [h1] at x1
    cases x1
    rw [h2] at x2
    cases x2
    rw [x4] at hq
    obtain ⟨q1, q2⟩ := paired_split hq
    rw [filter_brings q1] at x5
    refine ⟨fun e h => (by rw [x3] at h; cases h), a ++ b.take t.length, b.drop t.length, ?_, paired_append ha ?_, q2⟩
    · rw [hfs]
      rw [List.append_assoc, List.append_assoc, List.append_assoc, ← List.append_assoc (b.take _), List.take_append_drop]
    · exact paired_trans q1 x5 fun f m g hbr hfm => hbr.2 g hfm

theorem streamInv_reaches {bus : CanfdFrame → RxMsg → Prop} {good : FrameT → Prop} (hb : Faithful bus good) {fs : List FrameT}
    (hg : ∀ f ∈ fs, good f) {tx rx : Iface} {c : Stream} (h : Stream.Reaches bus (.start tx rx fs) c) : StreamInv fs c := by
  generalize hs : Stream.start tx rx fs = s at h
  induction h with
  | refl =>
    subst hs
    exact ⟨fun e h => (by cases h), [], [], rfl, ⟨rfl, fun i a b h => by simp at h⟩, ⟨rfl, fun i a b h => by simp at h⟩⟩
  | snoc _ st ih => exact streamInv_step hb hg ih st

theorem streamInv_use {fs : List FrameT} {c : Stream} (h : StreamInv fs c) :
    Paired Same (fs.take c.got.length) c.got ∧ c.pending = fs.drop (c.got.length + c.sock.queue.length) ∧
    ∀ out ans sock o, c.pending = [] → c.sock.answer = some (ans, sock) → c.rx.read out ans = .ok o → o.result = .SuccessNothing →
      Paired Same fs c.got := by
  obtain ⟨he, a, b, hfs, ha, hq⟩ := h
  refine ⟨?_, ?_, fun out ans sock o hp h1 h2 hr => ?_⟩
  · rw [hfs, List.append_assoc, ← ha.1, List.take_left']
    · exact ha
    · rfl
  · rw [hfs, ← ha.1, ← hq.1, ← List.length_append, List.drop_left']
    rfl
  · obtain ⟨ans', r1, o', x1, x2, x3, t, x4, x5, -, x6, -⟩ := read_once c.sock he c.rx out
    rw [h1] at x1
    cases x1
    rw [h2] at x2
    cases x2
    have hn := (x6.1 hr).2
    rw [hn] at hq
    have hb : b = [] := List.eq_nil_of_length_eq_zero hq.1
    rw [hp, hb, List.append_nil, List.append_nil] at hfs
    rw [hfs]
    exact ha

/-- The property as stated in `properties.jsonl`: whatever the sender sends, when everything is sent and nothing waits any more, the
receiver has got the same frames. -/
def C110_Statement : Prop :=
  ∀ (fs : List FrameT), (∀ f ∈ fs, f.dlc ≤ 15) → ∀ (tx rx : Iface) (c : Stream), Stream.Reaches OnBus (.start tx rx fs) c →
    c.pending = [] → c.sock.queue = [] → Paired Same fs c.got

/-- C110, partial: on a CAN FD bus, with frames of up to 8 bytes and identifiers other than 0. At every time, whatever the kernel took
and refused so far, the frames got are the first ones, those not sent are the last ones, and as many wait as there are between them:
none is lost, none is doubled, none overtakes another. When all is sent and `read` says `SuccessNothing`, all have been got.
Missing: longer frames and the identifier 0, see below. -/
theorem C110_bus_partial {fs : List FrameT} (hf : ∀ f ∈ fs, f.dlc ≤ 8 ∧ canId29 f.id ≠ 0) {tx rx : Iface} {c : Stream}
    (h : Stream.Reaches OnBus (.start tx rx fs) c) :
    Paired Same (fs.take c.got.length) c.got ∧ c.pending = fs.drop (c.got.length + c.sock.queue.length) ∧
    ∀ out ans sock o, c.pending = [] → c.sock.answer = some (ans, sock) → c.rx.read out ans = .ok o → o.result = .SuccessNothing →
      Paired Same fs c.got :=
  streamInv_use (streamInv_reaches faithful_bus hf h)

/-- C110, partial: the same on a virtual bus, there with frames of every length. Missing: the identifier 0. -/
theorem C110_vcan_partial {fs : List FrameT} (hf : ∀ f ∈ fs, f.dlc < 256 ∧ canId29 f.id ≠ 0) {tx rx : Iface} {c : Stream}
    (h : Stream.Reaches OnVcan (.start tx rx fs) c) :
    Paired Same (fs.take c.got.length) c.got ∧ c.pending = fs.drop (c.got.length + c.sock.queue.length) ∧
    ∀ out ans sock o, c.pending = [] → c.sock.answer = some (ans, sock) → c.rx.read out ans = .ok o → o.result = .SuccessNothing →
      Paired Same fs c.got :=
  streamInv_use (streamInv_reaches faithful_vcan hf h)

/-- The length of a CAN FD frame for up to 16 bytes. -/
def fdRound (n : Nat) : Nat := if n ≤ 8 then n else if n ≤ 12 then 12 else 16

theorem fdRound_least {n : Nat} (h : n ≤ 16) : IsLeastAtLeast FdLength n (fdRound n) := by
  unfold fdRound IsLeastAtLeast FdLength
  split
  · exact ⟨by omega, by omega, fun k _ hk => hk⟩
  · split
    · exact ⟨by omega, by omega, fun k hk hk' => by omega⟩
    · exact ⟨by omega, by omega, fun k hk hk' => by omega⟩

/-- What the receiver gets from a bus that fills up frames with other data than the sender's. -/
def busMsg (w : CanfdFrame) : RxMsg :=
  ⟨false, { w with len := BitVec.ofNat 8 (fdRound w.len.toNat),
                   data := Vector.ofFn fun k : Fin 64 => if k.val < w.len.toNat then w.data[k] else w.data[k] + 1 }, []⟩

theorem onBus_busMsg {w : CanfdFrame} (h : w.len.toNat ≤ 16) : OnBus w (busMsg w) := by
  have hr : fdRound w.len.toNat < 256 := by unfold fdRound; split <;> (try split) <;> omega
  refine ⟨rfl, rfl, ?_, fun k hk hl => ?_⟩
  · have : (busMsg w).frame.len.toNat = fdRound w.len.toNat := by
      show (BitVec.ofNat 8 _).toNat = _
      rw [BitVec.toNat_ofNat, Nat.mod_eq_of_lt hr]
    rw [this]
    exact fdRound_least h
  · show (Vector.ofFn _)[k] = _
    rw [Vector.getElem_ofFn, if_pos hl]
    rfl

/-- A sender sends one frame, the receiver reads once. -/
theorem one_frame (tx rx : Iface) (f : FrameT) (hd : f.dlc ≤ 15) : ∃ c w, Stream.Reaches OnBus (.start tx rx [f]) c ∧
    c.pending = [] ∧ c.sock.queue = [] ∧ c.sock.err = none ∧ Submits f w ∧
    AllFrom ([busMsg w].filter fun m => Delivers m.frame.can_id) c.got := by
  obtain ⟨o, h1, h2, h3⟩ := write_submits tx (Vector.replicate FramesLen f) [f] ⟨1, 0⟩ (by simp)
    (fun i hi hl => by
      have : i = 0 := by simp at hl; omega
      subst this
      rfl) (.inr ⟨by decide, by simp⟩) (fun g hg => by simp at hg; subst hg; omega)
  have hl := h3.1
  have hl1 : o.submitted.length = 1 := by simpa using hl.symm
  obtain ⟨w, hw⟩ := List.length_eq_one_iff.1 hl1
  have hs : Submits f w := h3.2 0 f w rfl (by rw [hw]; rfl)
  have hlen : w.len.toNat ≤ 16 := by rw [hs.2.2.2]; omega
  have st1 : Stream.Step OnBus (.start tx rx [f])
      ⟨o.iface, [], ⟨[busMsg w], none⟩, rx, []⟩ := by
    have := Stream.Step.write (bus := OnBus) (c := .start tx rx [f]) (Vector.replicate FramesLen f) ⟨1, 0⟩ o [busMsg w] (by simp [Stream.start])
      (fun i hi hl => by
        have : i = 0 := by simp [Stream.start] at hl; omega
        subst this
        rfl) (.inr ⟨by decide, by simp [Stream.start]⟩) h1
      ⟨by rw [hw]; rfl, fun i a b ha hb => by
        rw [hw] at ha
        have hi : i < 1 := by simpa using (List.getElem?_eq_some_iff.1 hb).1
        have : i = 0 := by omega
        subst this
        cases ha
        cases hb
        exact onBus_busMsg hlen⟩
    rw [h2] at this
    exact this
  obtain ⟨ans, r1, o2, x1, x2, x3, t, x4, x5, x6, -, -, x7, -⟩ :=
    read_once ⟨[busMsg w], none⟩ (fun e h => by cases h) rx (Vector.replicate FramesLen f)
  have ht := x7 (x6.2 ⟨rfl, by simp⟩)
  have ht' : t = [busMsg w] := ht
  rw [ht'] at x4 x5
  have hq : r1.queue = [] := by
    have := congrArg List.length x4
    simp at this
    exact this
  refine ⟨_, w, .snoc (.snoc (.refl _) st1) (.read (Vector.replicate FramesLen f) ans r1 o2 x1 x2), rfl, hq, x3, hs, ?_⟩
  exact x5

theorem reaches_trans {bus : CanfdFrame → RxMsg → Prop} {a b c : Stream} (h : Stream.Reaches bus a b) (h' : Stream.Reaches bus b c) :
    Stream.Reaches bus a c := by
  induction h' with
  | refl => exact h
  | snoc _ st ih => exact .snoc ih st

theorem write_step (c : Stream) (hp : c.pending ≠ []) (hd : ∀ f ∈ c.pending, f.dlc ≤ 15) :
    ∃ c', Stream.Step OnBus c c' ∧ c'.pending = c.pending.drop 4 ∧ c'.sock.err = c.sock.err := by
  have hlen := List.length_pos_iff.2 hp
  have harr : ∀ i, i < 4 → i < c.pending.length →
      (Vector.ofFn fun i : Fin FramesLen => c.pending.getD i.val Frame.default)[i]? = c.pending[i]? := by
    intro i hi hl
    rw [Vector.getElem?_eq_getElem (by exact hi), Vector.getElem_ofFn, List.getElem?_eq_getElem hl]
    simp only [List.getD, List.getElem?_eq_getElem hl, Option.getD_some]
  have hv : ValidSend (min 4 c.pending.length) ⟨(min 4 c.pending.length : Nat), 0⟩ := .inr ⟨by simp only; omega, by simp only; omega⟩
  obtain ⟨o, h1, h2, h3⟩ := write_submits c.tx _ c.pending _ hp harr hv (fun f hf => by have := hd f hf; omega)
  have hq : queued ⟨(min 4 c.pending.length : Nat), 0⟩ = min 4 c.pending.length := by
    unfold queued
    rw [if_pos (by simp only; omega)]
    simp
  rw [hq] at h2
  have hbus : ∀ w ∈ o.submitted, OnBus w (busMsg w) := by
    intro w hw
    obtain ⟨i, hi, rfl⟩ := List.getElem_of_mem hw
    have hi' : i < (c.pending.take 4).length := by rw [h3.1]; exact hi
    have := h3.2 i _ _ (List.getElem?_eq_getElem hi') (List.getElem?_eq_getElem hi)
    apply onBus_busMsg
    rw [this.2.2.2]
    have := hd _ (List.mem_of_mem_take (List.getElem_mem hi'))
    omega
  refine ⟨_, .write _ _ o ((o.submitted.take _).map busMsg) hp harr hv h1 ⟨by rw [List.length_map], fun i a b ha hb => ?_⟩, ?_, rfl⟩
  · rw [List.getElem?_map, ha] at hb
    cases hb
    exact hbus a (List.mem_of_mem_take (List.mem_of_getElem? ha))
  · show c.pending.drop o.written = _
    rw [h2]
    by_cases h4 : 4 ≤ c.pending.length
    · rw [Nat.min_eq_left h4]
    · rw [Nat.min_eq_right (by omega), List.drop_length, List.drop_eq_nil_of_le (by omega)]

theorem sends_all (n : Nat) : ∀ c : Stream, c.pending.length ≤ n → (∀ f ∈ c.pending, f.dlc ≤ 15) →
    ∃ c', Stream.Reaches OnBus c c' ∧ c'.pending = [] ∧ c'.sock.err = c.sock.err := by
  induction n with
  | zero => exact fun c h _ => ⟨c, .refl c, List.eq_nil_of_length_eq_zero (by omega), rfl⟩
  | succ n ih =>
    intro c h hd
    by_cases hp : c.pending = []
    · exact ⟨c, .refl c, hp, rfl⟩
    · obtain ⟨c1, st, h1, h2⟩ := write_step c hp hd
      have := List.length_pos_iff.2 hp
      obtain ⟨c', r, a, b⟩ := ih c1 (by rw [h1, List.length_drop]; omega)
        (fun f hf => hd f (List.mem_of_mem_drop (by rw [← h1]; exact hf)))
      exact ⟨c', reaches_trans (.snoc (.refl c) st) r, a, b.trans h2⟩

theorem reads_all (n : Nat) : ∀ c : Stream, c.sock.queue.length ≤ n → c.sock.err = none →
    ∃ c', Stream.Reaches OnBus c c' ∧ c'.pending = c.pending ∧ c'.sock.queue = [] ∧ c'.sock.err = none := by
  induction n with
  | zero => exact fun c h he => ⟨c, .refl c, rfl, List.eq_nil_of_length_eq_zero (by omega), he⟩
  | succ n ih =>
    intro c h he
    by_cases hq : c.sock.queue = []
    · exact ⟨c, .refl c, rfl, hq, he⟩
    · obtain ⟨ans, r1, o2, x1, x2, x3, t, x4, x5, x6, -, -, x7, -⟩ :=
        read_once c.sock (fun e h => by rw [he] at h; cases h) c.rx (Vector.replicate FramesLen Frame.default)
      have ht := x7 (x6.2 ⟨he, hq⟩)
      have := List.length_pos_iff.2 hq
      have hl := congrArg List.length x4
      rw [ht, List.length_append, List.length_take] at hl
      obtain ⟨c', r, a, b⟩ := ih ⟨c.tx, c.pending, r1, o2.iface, c.got ++ o2.out_frames.toList.take o2.read⟩
        (by simp only; omega) x3
      exact ⟨c', reaches_trans (.snoc (.refl c) (.read _ ans r1 o2 x1 x2)) r, a, b⟩

/-- C110: it can always be finished: no history brings the two into a state from which the rest cannot be sent and received. -/
theorem C110_can_finish (c : Stream) (hd : ∀ f ∈ c.pending, f.dlc ≤ 15) (he : RealErr c.sock) :
    ∃ c', Stream.Reaches OnBus c c' ∧ c'.pending = [] ∧ c'.sock.queue = [] := by
  obtain ⟨c1, r1, a1, b1⟩ := sends_all _ c (Nat.le_refl _) hd
  have he1 : RealErr c1.sock := fun e h => he e (by rw [← b1]; exact h)
  obtain ⟨ans, r2, o2, x1, x2, x3, -⟩ := read_once c1.sock he1 c1.rx (Vector.replicate FramesLen Frame.default)
  obtain ⟨c3, r3, a3, b3, -⟩ := reads_all _ ⟨c1.tx, c1.pending, r2, o2.iface, c1.got ++ o2.out_frames.toList.take o2.read⟩
    (Nat.le_refl _) x3
  exact ⟨c3, reaches_trans (.snoc r1 (.read _ ans r2 o2 x1 x2)) r3, a3.trans a1, b3⟩

/-- A frame of two bytes. -/
def smallFrame (id : BitVec 29) : FrameT := { Frame.default with id := id.setWidth 32, dlc := 2 }

/-- Six frames are sent and received. -/
example (tx rx : Iface) : ∃ c, Stream.Reaches OnBus (.start tx rx [smallFrame 1, smallFrame 2, smallFrame 3, smallFrame 4, smallFrame 5,
    smallFrame 6]) c ∧ c.got.length = 6 := by
  obtain ⟨c, h, hp, hq⟩ := C110_can_finish (.start tx rx [smallFrame 1, smallFrame 2, smallFrame 3, smallFrame 4, smallFrame 5,
    smallFrame 6]) (fun f hf => by simp only [Stream.start, List.mem_cons, List.not_mem_nil, or_false] at hf; rcases hf with rfl | rfl | rfl | rfl | rfl | rfl <;> decide)
    (fun e h => by cases h)
  refine ⟨c, h, ?_⟩
  have hf : ∀ f ∈ [smallFrame 1, smallFrame 2, smallFrame 3, smallFrame 4, smallFrame 5, smallFrame 6], f.dlc ≤ 8 ∧ canId29 f.id ≠ 0 :=
    fun f hf => by
      simp only [List.mem_cons, List.not_mem_nil, or_false] at hf
      rcases hf with rfl | rfl | rfl | rfl | rfl | rfl <;> decide
  obtain ⟨h1, h2, -⟩ := C110_bus_partial hf h
  have h3 := congrArg List.length h2
  have h4 := h1.1
  rw [hp, hq, List.length_nil, List.length_drop] at h3
  rw [List.length_take] at h4
  simp only [List.length_cons, List.length_nil] at h3 h4
  omega

/-- C110: exactly the frames of up to 8 bytes with an identifier other than 0 are sure to come through a CAN FD bus. (On a frame of 24
bytes, data length code 12, the first 12 bytes come through and the code too.) -/
theorem C110_bus_exact {f : FrameT} (hd : f.dlc ≤ 15) :
    (∀ (tx rx : Iface) (c : Stream), Stream.Reaches OnBus (.start tx rx [f]) c → c.pending = [] → c.sock.queue = [] →
      Paired Same [f] c.got) ↔ f.dlc ≤ 8 ∧ canId29 f.id ≠ 0 := by
  constructor
  · intro h
    obtain ⟨c, w, h1, h2, h3, -, hs, h4⟩ := one_frame (Iface.mk' 0 "can0" 3) (Iface.mk' 0 "can1" 4) f hd
    have hp := h _ _ _ h1 h2 h3
    obtain ⟨g, hg⟩ := List.length_eq_one_iff.1 hp.1.symm
    rw [hg] at h4 hp
    have hdel : Delivers (busMsg w).frame.can_id = true := by
      cases hdv : Delivers (busMsg w).frame.can_id with
      | true => rfl
      | false =>
        rw [List.filter_cons_of_neg (by simp [hdv])] at h4
        exact absurd h4.1 (by simp)
    rw [List.filter_cons_of_pos (by simp [hdel])] at h4
    have hfrom := h4.2 0 _ _ rfl rfl
    have hsame := hp.2 0 _ _ rfl rfl
    refine ⟨?_, ?_⟩
    · have hlen : (busMsg w).frame.len.toNat = fdRound f.dlc := by
        show (BitVec.ofNat 8 (fdRound w.len.toNat)).toNat = _
        rw [hs.2.2.2, BitVec.toNat_ofNat]
        unfold fdRound
        split <;> (try split) <;> omega
      have h12 : f.dlc = fdRound f.dlc := hsame.2.1.trans (hfrom.2.1.trans hlen)
      by_cases h8 : f.dlc ≤ 8
      · exact h8
      · exfalso
        have h12' : f.dlc = 12 := by
          unfold fdRound at h12
          rw [if_neg h8] at h12
          split at h12 <;> omega
        have hl24 : f.getDataLength = 24 := by simp only [Frame.getDataLength, h12']; decide
        have hg24 : g.getDataLength = 24 := by simp only [Frame.getDataLength, ← hsame.2.1, h12']; decide
        have a := hsame.2.2 12 (by omega) (by omega)
        have b := hfrom.2.2 12 (by omega) (by omega) (by simp [RxMsg.room, busMsg])
        have e : (busMsg w).frame.data[12] = w.data[12] + 1 := by
          show (Vector.ofFn _)[12] = _
          rw [Vector.getElem_ofFn, if_neg (by rw [hs.2.2.2, h12']; exact Nat.lt_irrefl 12)]
          rfl
        have d := hs.2.2.1 12 (by omega) (by omega)
        rw [e, d, ← a] at b
        have := congrArg BitVec.toNat b
        rw [BitVec.toNat_add, show (1 : BitVec 8).toNat = 1 from rfl] at this
        have hlt := f.data[12].isLt
        omega
    · have hid : canId29 w.can_id ≠ 0 := by
        have : Delivers w.can_id = true := hdel
        simp only [Delivers, Bool.and_eq_true, bne_iff_ne] at this
        exact this.2
      rw [← hs.2.1]
      exact hid
  · intro hg tx rx c hr hp hq
    obtain ⟨-, a, b, hfs, ha, hb⟩ := streamInv_reaches faithful_bus (fs := [f]) (fun g hg' => by simp at hg'; subst hg'; exact hg) hr
    rw [hq] at hb
    rw [hp, List.eq_nil_of_length_eq_zero hb.1, List.append_nil, List.append_nil] at hfs
    rw [hfs]
    exact ha

/-- C110: what becomes of longer frames: those of data length code 9 to 12 (12 to 24 bytes) arrive with code 12, longer ones with 16,
which is no data length code at all: such a frame arrives without data. -/
theorem C110_longer_frames (tx rx : Iface) {f : FrameT} (hd : f.dlc ≤ 15) (h9 : 9 ≤ f.dlc) (hz : canId29 f.id ≠ 0) :
    ∃ c g, Stream.Reaches OnBus (.start tx rx [f]) c ∧ c.got = [g] ∧
      if f.dlc ≤ 12 then g.dlc = 12 ∧ g.getDataLength = 24 else g.dlc = 16 ∧ g.getDataLength = 0 := by
  obtain ⟨c, w, h1, h2, h3, -, hs, h4⟩ := one_frame tx rx f hd
  have hdel : Delivers (busMsg w).frame.can_id = true := (submits_delivers hs hz : Delivers w.can_id = true)
  rw [List.filter_cons_of_pos (by simp [hdel])] at h4
  obtain ⟨g, hg⟩ := List.length_eq_one_iff.1 h4.1.symm
  rw [hg] at h4
  have hfrom := h4.2 0 _ _ rfl rfl
  refine ⟨c, g, h1, hg, ?_⟩
  clear h1 h2 h3 hg
  have hdlc : g.dlc = if f.dlc ≤ 12 then 12 else 16 := by
    rw [hfrom.2.1]
    show (BitVec.ofNat 8 (fdRound w.len.toNat)).toNat = _
    rw [hs.2.2.2, BitVec.toNat_ofNat]
    unfold fdRound
    rw [if_neg (by omega)]
    split <;> omega
  split
  · rename_i h
    rw [if_pos h] at hdlc
    exact ⟨hdlc, by simp only [Frame.getDataLength, hdlc]; decide⟩
  · rename_i h
    rw [if_neg h] at hdlc
    exact ⟨hdlc, by simp only [Frame.getDataLength, hdlc]; decide⟩

/-- C110 is false of the code: a frame of 12 bytes. -/
theorem C110_full_statement_fails : ¬ C110_Statement := by
  intro h
  have := (C110_bus_exact (f := { (Frame.default : FrameT) with id := 1, dlc := 9 }) (by simp)).1
    (fun tx rx c hr hp hq => h _ (fun f hf => by simp at hf; subst hf; simp) tx rx c hr hp hq)
  simp at this

end Uavcan.SocketCan
