import Verif.Spec.Links
import Verif.Props.Stream

/-!
# C136: redundant buses
-/

namespace Uavcan.SocketCan
open Spec Can

theorem put_same {α : Type} (f : Nat → α) (k : Nat) (a : α) : put f k a k = a := if_pos rfl
theorem put_other {α : Type} (f : Nat → α) {k j : Nat} (a : α) (h : j ≠ k) : put f k a j = f j := if_neg h

theorem Group.write_iface {g : Group} {k : Nat} {i : Iface} (hi : g.interfaces[k]? = some i) {arr : Vector FrameT FramesLen} {n before : Nat} {ans : SysAns} {o : Group.WriteOut} :
    g.write k arr n before ans = .ok o ↔ ∃ r, i.write arr n ans = .ok r ∧ o = ⟨r.result, r.written, ⟨g.interfaces.set k r.iface⟩, r.submitted⟩ := by
  unfold Group.write
  rw [hi]
  simp only
  cases i.write arr n ans with
  | ub u => exact ⟨fun h => (by cases h), fun ⟨r, h, _⟩ => (by cases h)⟩
  | ok r => exact ⟨fun h => (by cases h; exact ⟨r, rfl, rfl⟩), fun ⟨r', h, e⟩ => (by cases h; rw [e]; rfl)⟩

theorem Group.read_iface {g : Group} {k : Nat} {i : Iface} (hi : g.interfaces[k]? = some i) {out : Vector FrameT FramesLen} {before : Nat} {ans : RecvAns} {o : Group.ReadOut} :
    g.read k out before ans = .ok o ↔ ∃ r, i.read out ans = .ok r ∧ o = ⟨r.result, r.out_frames, r.read, ⟨g.interfaces.set k r.iface⟩⟩ := by
  unfold Group.read
  rw [hi]
  simp only
  cases i.read out ans with
  | ub u => exact ⟨fun h => (by cases h), fun ⟨r, h, _⟩ => (by cases h)⟩
  | ok r => exact ⟨fun h => (by cases h; exact ⟨r, rfl, rfl⟩), fun ⟨r', h, e⟩ => (by cases h; rw [e]; rfl)⟩

/-- One bus by itself; of a cut one, what never arrives is still to be sent. -/
def BusInv (fs : List FrameT) (c : Links) (k : Nat) : Prop :=
  ∃ p, (c.cut k = false → p = c.pending k) ∧ ∀ tx rx, StreamInv fs ⟨tx, p, c.sock k, rx, c.got k⟩

/-- All of them, and what has been passed on. -/
def LinksInv (fs : List FrameT) (c : Links) : Prop :=
  (∀ k, BusInv fs c k) ∧ Paired Same (fs.take c.merged.length) c.merged ∧ (∀ k, (c.got k).length ≤ c.merged.length) ∧ ∃ k, c.merged.length = (c.got k).length

theorem paired_drop {α β : Type} {P : α → β → Prop} {a : List α} {b : List β} (h : Paired P a b) (n : Nat) : Paired P (a.drop n) (b.drop n) := by
  refine ⟨by simp [h.1], fun i x y hx hy => ?_⟩
  rw [List.getElem?_drop] at hx hy
  exact h.2 _ x y hx hy

theorem passOn_length (m g : List FrameT) : (passOn m g).length = max m.length g.length := by
  simp only [passOn, List.length_append, List.length_drop]
  omega

theorem passOn_paired {fs m g : List FrameT} (hm : Paired Same (fs.take m.length) m) (hg : Paired Same (fs.take g.length) g) :
    Paired Same (fs.take (passOn m g).length) (passOn m g) := by
  rw [passOn_length]
  unfold passOn
  by_cases h : g.length ≤ m.length
  · rw [Nat.max_eq_left h, List.drop_eq_nil_of_le h, List.append_nil]
    exact hm
  · have h' : m.length ≤ g.length := by omega
    rw [Nat.max_eq_right h']
    have := paired_drop hg m.length
    have e : fs.take g.length = fs.take m.length ++ (fs.take g.length).drop m.length := by
      have := List.take_append_drop m.length (fs.take g.length)
      rw [List.take_take, Nat.min_eq_left h'] at this
      exact this.symm
    rw [e]
    exact paired_append hm this

theorem linksInv_step {bus : CanfdFrame → RxMsg → Prop} {good : FrameT → Prop} (hb : Faithful bus good) {fs : List FrameT} (hg : ∀ f ∈ fs, good f) {c c' : Links}
    (h : LinksInv fs c) (st : Links.Step bus c c') : LinksInv fs c' := by
  obtain ⟨hk, hm, hle, hmax⟩ := h
  cases st with
  | write k arr before ans o ms hlt hp harr hv hw hms hcut =>
    refine ⟨fun j => ?_, hm, hle, hmax⟩
    by_cases hj : j = k
    · subst hj
      obtain ⟨p, hpe, hi⟩ := hk j
      cases hc : c.cut j with
      | true =>
        refine ⟨p, fun h => absurd (hc.symm.trans h) (by decide), fun tx rx => ?_⟩
        have := hi tx rx
        simp only [put_same, hcut hc, List.append_nil]
        exact this
      | false =>
        have hpe := hpe hc
        subst hpe
        obtain ⟨i, hit⟩ : ∃ i, c.tx.interfaces[j]? = some i := ⟨_, List.getElem?_eq_getElem hlt⟩
        obtain ⟨r, hr, rfl⟩ := (Group.write_iface hit).1 hw
        refine ⟨(c.pending j).drop r.written, fun _ => by simp only [put_same], fun tx rx => ?_⟩
        have := streamInv_step hb hg (hi i rx) (.write arr ans r ms hp harr hv hr (hms hc))
        simp only [put_same]
        exact this
    · obtain ⟨p, hpe, hi⟩ := hk j
      refine ⟨p, fun h => ?_, fun tx rx => ?_⟩
      · simp only [put_other _ _ hj]
        exact hpe h
      · simp only [put_other _ _ hj]
        exact hi tx rx
  | cut k arrive =>
    refine ⟨fun j => ?_, hm, hle, hmax⟩
    obtain ⟨p, hpe, hi⟩ := hk j
    by_cases hj : j = k
    · subst hj
      obtain ⟨he, a, b, hfs, ha, hq⟩ := hi (Iface.mk' 0 "" 0) (Iface.mk' 0 "" 0)
      refine ⟨b.drop arrive ++ p, fun h => absurd h (by simp only [put_same]; decide), fun tx rx => ⟨?_, a, b.take arrive, ?_, ?_, ?_⟩⟩
      · intro e h
        simp only [put_same] at h
        exact he e h
      · show fs = a ++ b.take arrive ++ (b.drop arrive ++ p)
        rw [List.append_assoc, ← List.append_assoc (b.take arrive), List.take_append_drop, ← List.append_assoc]
        exact hfs
      · exact ha
      · simp only [put_same]
        exact paired_take hq arrive
    · refine ⟨p, fun h => ?_, fun tx rx => ?_⟩
      · simp only [put_other _ _ hj] at h
        exact hpe h
      · simp only [put_other _ _ hj]
        exact hi tx rx
  | fail k e hne =>
    refine ⟨fun j => ?_, hm, hle, hmax⟩
    obtain ⟨p, hpe, hi⟩ := hk j
    refine ⟨p, hpe, fun tx rx => ?_⟩
    by_cases hj : j = k
    · subst hj
      simp only [put_same]
      exact streamInv_step hb hg (hi tx rx) (.fail e hne)
    · simp only [put_other _ _ hj]
      exact hi tx rx
  | read k out before ans sock o hlt ha hr =>
    obtain ⟨i, hit⟩ : ∃ i, c.rx.interfaces[k]? = some i := ⟨_, List.getElem?_eq_getElem hlt⟩
    obtain ⟨r, hr', rfl⟩ := (Group.read_iface hit).1 hr
    have hnew : ∃ p, (c.cut k = false → p = c.pending k) ∧ ∀ tx rx, StreamInv fs ⟨tx, p, sock, rx, c.got k ++ r.out_frames.toList.take r.read⟩ := by
      obtain ⟨p, hpe, hi⟩ := hk k
      exact ⟨p, hpe, fun tx rx => by
        have := streamInv_step hb hg (hi tx i) (.read out ans sock r ha hr')
        exact this⟩
    refine ⟨fun j => ?_, ?_, fun j => ?_, ?_⟩
    · by_cases hj : j = k
      · subst hj
        obtain ⟨p, hpe, hi⟩ := hnew
        exact ⟨p, hpe, fun tx rx => by simp only [put_same]; exact hi tx rx⟩
      · obtain ⟨p, hpe, hi⟩ := hk j
        exact ⟨p, hpe, fun tx rx => by simp only [put_other _ _ hj]; exact hi tx rx⟩
    · obtain ⟨p, -, hi⟩ := hnew
      exact passOn_paired hm (streamInv_use (hi i i)).1
    · simp only [passOn_length]
      by_cases hj : j = k
      · subst hj
        simp only [put_same]
        omega
      · simp only [put_other _ _ hj]
        have := hle j
        omega
    · simp only [passOn_length]
      obtain ⟨j, hj⟩ := hmax
      by_cases hgt : (c.got k ++ r.out_frames.toList.take r.read).length ≤ c.merged.length
      · refine ⟨j, ?_⟩
        rw [Nat.max_eq_left hgt]
        by_cases hjk : j = k
        · subst hjk
          simp only [put_same]
          rw [List.length_append] at hgt ⊢
          omega
        · simp only [put_other _ _ hjk]
          exact hj
      · refine ⟨k, ?_⟩
        simp only [put_same]
        omega

theorem linksInv_start (tx rx : Group) (fs : List FrameT) : LinksInv fs (.start tx rx fs) :=
  ⟨fun k => ⟨fs, fun _ => rfl, fun tx rx => ⟨fun e h => (by cases h), [], [], rfl, ⟨rfl, fun i a b h => by simp at h⟩, ⟨rfl, fun i a b h => by simp at h⟩⟩⟩,
    ⟨by simp [Links.start], fun i a b h => by simp [Links.start] at h⟩, fun _ => Nat.le_refl _, 0, rfl⟩

theorem linksInv_reaches {bus : CanfdFrame → RxMsg → Prop} {good : FrameT → Prop} (hb : Faithful bus good) {fs : List FrameT} (hg : ∀ f ∈ fs, good f) {a c : Links}
    (h : Links.Reaches bus a c) (ha : LinksInv fs a) : LinksInv fs c := by
  induction h with
  | refl => exact ha
  | snoc _ st ih => exact linksInv_step hb hg ih st

theorem paired_all {fs m : List FrameT} (h : Paired Same (fs.take m.length) m) (hl : fs.length ≤ m.length) : Paired Same fs m := by
  rwa [List.take_of_length_le hl] at h

theorem linksInv_use {fs : List FrameT} {c : Links} (h : LinksInv fs c) :
    Paired Same (fs.take c.merged.length) c.merged ∧ (∀ k, Paired Same (fs.take (c.got k).length) (c.got k)) ∧
    (∀ k, (c.got k).length ≤ c.merged.length) ∧ (∃ k, c.merged.length = (c.got k).length) ∧
    ∀ k out before ans sock o, c.cut k = false → c.pending k = [] → k < c.rx.interfaces.length → (c.sock k).answer = some (ans, sock) → c.rx.read k out before ans = .ok o →
      o.result = .SuccessNothing → Paired Same fs c.merged := by
  obtain ⟨hk, hm, hle, hmax⟩ := h
  refine ⟨hm, fun k => ?_, hle, hmax, fun k out before ans sock o hc hp hlt ha hr hres => ?_⟩
  · obtain ⟨p, -, hi⟩ := hk k
    exact (streamInv_use (hi (Iface.mk' 0 "" 0) (Iface.mk' 0 "" 0))).1
  · obtain ⟨p, hpe, hi⟩ := hk k
    obtain ⟨i, hit⟩ : ∃ i, c.rx.interfaces[k]? = some i := ⟨_, List.getElem?_eq_getElem hlt⟩
    obtain ⟨r, hr', rfl⟩ := (Group.read_iface hit).1 hr
    have := (streamInv_use (hi i i)).2.2 out ans sock r (by rw [hpe hc]; exact hp) ha hr' hres
    refine paired_all hm ?_
    rw [this.1]
    exact hle k

/-- What a bus that is not cut does by itself, the whole can do. -/
theorem links_lift {bus : CanfdFrame → RxMsg → Prop} {s s' : Stream} (st : Stream.Step bus s s') (c : Links) (k : Nat) (ht : c.tx.interfaces[k]? = some s.tx)
    (hr : c.rx.interfaces[k]? = some s.rx) (hp : c.pending k = s.pending) (hs : c.sock k = s.sock) (hgt : c.got k = s.got) (hc : c.cut k = false) :
    ∃ c', Links.Step bus c c' ∧ c'.tx.interfaces[k]? = some s'.tx ∧ c'.rx.interfaces[k]? = some s'.rx ∧ c'.pending k = s'.pending ∧ c'.sock k = s'.sock ∧ c'.got k = s'.got ∧
      c'.cut k = false := by
  have hlt := (List.getElem?_eq_some_iff.1 ht).1
  have hlr := (List.getElem?_eq_some_iff.1 hr).1
  cases st with
  | write arr ans o ms hpn harr hv hw hm =>
    rw [← hp] at hpn harr hv hw
    refine ⟨_, .write k arr 0 ans _ ms hlt hpn harr hv ((Group.write_iface ht).2 ⟨o, hw, rfl⟩) (fun _ => hm) (fun h => absurd (hc.symm.trans h) (by decide)), ?_, hr, ?_, ?_, hgt, hc⟩
    · simp only [List.getElem?_set_self hlt]
    · simp only [put_same, hp]
    · simp only [put_same, hs]
  | fail e hne =>
    refine ⟨_, .fail k e hne, ht, hr, hp, ?_, hgt, hc⟩
    simp only [put_same, hs]
  | read out ans sock o ha hrd =>
    rw [← hs] at ha
    refine ⟨_, .read k out 0 ans sock _ hlr ha ((Group.read_iface hr).2 ⟨o, hrd, rfl⟩), ht, ?_, hp, ?_, ?_, hc⟩
    · simp only [List.getElem?_set_self hlr]
    · simp only [put_same]
    · simp only [put_same, hgt]

theorem links_lift_reaches {bus : CanfdFrame → RxMsg → Prop} {s s' : Stream} (h : Stream.Reaches bus s s') (c : Links) (k : Nat) (ht : c.tx.interfaces[k]? = some s.tx)
    (hr : c.rx.interfaces[k]? = some s.rx) (hp : c.pending k = s.pending) (hs : c.sock k = s.sock) (hgt : c.got k = s.got) (hc : c.cut k = false) :
    ∃ c', Links.Reaches bus c c' ∧ c'.tx.interfaces[k]? = some s'.tx ∧ c'.rx.interfaces[k]? = some s'.rx ∧ c'.pending k = s'.pending ∧ c'.sock k = s'.sock ∧ c'.got k = s'.got ∧
      c'.cut k = false := by
  induction h with
  | refl => exact ⟨c, .refl c, ht, hr, hp, hs, hgt, hc⟩
  | snoc _ st ih =>
    obtain ⟨c1, r1, a1, a2, a3, a4, a5, a6⟩ := ih
    obtain ⟨c2, st2, b⟩ := links_lift st c1 k a1 a2 a3 a4 a5 a6
    exact ⟨c2, .snoc r1 st2, b⟩

/-! ## C136 -/

/-- C136: on CAN FD buses, with frames of up to 8 bytes and identifiers other than 0 (see C110). At every time, however buses were cut and sockets failed, what was passed on are the
first frames, each once, in order: as many as the fastest interface has brought. As soon as all is written to one interface whose bus was never cut, and `read` says of it that there is
nothing more, everything has been passed on. -/
theorem C136_bus {fs : List FrameT} (hf : ∀ f ∈ fs, f.dlc ≤ 8 ∧ canId29 f.id ≠ 0) {tx rx : Group} {c : Links} (h : Links.Reaches OnBus (.start tx rx fs) c) :
    Paired Same (fs.take c.merged.length) c.merged ∧ (∀ k, Paired Same (fs.take (c.got k).length) (c.got k)) ∧
    (∀ k, (c.got k).length ≤ c.merged.length) ∧ (∃ k, c.merged.length = (c.got k).length) ∧
    ∀ k out before ans sock o, c.cut k = false → c.pending k = [] → k < c.rx.interfaces.length → (c.sock k).answer = some (ans, sock) → c.rx.read k out before ans = .ok o →
      o.result = .SuccessNothing → Paired Same fs c.merged :=
  linksInv_use (linksInv_reaches faithful_bus hf h (linksInv_start tx rx fs))

/-- C136: the same on virtual buses, there with frames of every length. -/
theorem C136_vcan {fs : List FrameT} (hf : ∀ f ∈ fs, f.dlc < 256 ∧ canId29 f.id ≠ 0) {tx rx : Group} {c : Links} (h : Links.Reaches OnVcan (.start tx rx fs) c) :
    Paired Same (fs.take c.merged.length) c.merged ∧ (∀ k, Paired Same (fs.take (c.got k).length) (c.got k)) ∧
    (∀ k, (c.got k).length ≤ c.merged.length) ∧ (∃ k, c.merged.length = (c.got k).length) ∧
    ∀ k out before ans sock o, c.cut k = false → c.pending k = [] → k < c.rx.interfaces.length → (c.sock k).answer = some (ans, sock) → c.rx.read k out before ans = .ok o →
      o.result = .SuccessNothing → Paired Same fs c.merged :=
  linksInv_use (linksInv_reaches faithful_vcan hf h (linksInv_start tx rx fs))

theorem lengths_step {bus : CanfdFrame → RxMsg → Prop} {b c : Links} (st : Links.Step bus b c) :
    c.tx.interfaces.length = b.tx.interfaces.length ∧ c.rx.interfaces.length = b.rx.interfaces.length := by
  cases st with
  | write k arr before ans o ms hlt hp harr hv hw hms hcut =>
    obtain ⟨r, hr, rfl⟩ := (Group.write_iface (List.getElem?_eq_getElem hlt)).1 hw
    exact ⟨by simp, rfl⟩
  | cut k arrive => exact ⟨rfl, rfl⟩
  | fail k e hne => exact ⟨rfl, rfl⟩
  | read k out before ans sock o hlt ha hr =>
    obtain ⟨r, hr, rfl⟩ := (Group.read_iface (List.getElem?_eq_getElem hlt)).1 hr
    exact ⟨rfl, by simp⟩

theorem lengths_reaches {bus : CanfdFrame → RxMsg → Prop} {b c : Links} (h : Links.Reaches bus b c) :
    c.tx.interfaces.length = b.tx.interfaces.length ∧ c.rx.interfaces.length = b.rx.interfaces.length := by
  induction h with
  | refl => exact ⟨rfl, rfl⟩
  | snoc _ st ih => exact ⟨(lengths_step st).1.trans ih.1, (lengths_step st).2.trans ih.2⟩

theorem links_trans {bus : CanfdFrame → RxMsg → Prop} {a b c : Links} (h : Links.Reaches bus a b) (h' : Links.Reaches bus b c) : Links.Reaches bus a c := by
  induction h' with
  | refl => exact h
  | snoc _ st ih => exact .snoc ih st

/-- C136: whatever has happened, as long as one bus is not cut everything can still be delivered. -/
theorem C136_can_finish {fs : List FrameT} (hf : ∀ f ∈ fs, f.dlc ≤ 8 ∧ canId29 f.id ≠ 0) {tx rx : Group} {c : Links} (h : Links.Reaches OnBus (.start tx rx fs) c) {k : Nat}
    (ht : k < tx.interfaces.length) (hr : k < rx.interfaces.length) (hc : c.cut k = false) :
    ∃ c', Links.Reaches OnBus c c' ∧ Paired Same fs c'.merged := by
  have hi := linksInv_reaches faithful_bus hf h (linksInv_start tx rx fs)
  obtain ⟨l1, l2⟩ := lengths_reaches h
  obtain ⟨i, hit⟩ : ∃ i, c.tx.interfaces[k]? = some i := ⟨_, List.getElem?_eq_getElem (by rw [l1]; exact ht)⟩
  obtain ⟨j, hjt⟩ : ∃ j, c.rx.interfaces[k]? = some j := ⟨_, List.getElem?_eq_getElem (by rw [l2]; exact hr)⟩
  obtain ⟨p, hp, hs⟩ := hi.1 k
  have hp := hp hc
  subst hp
  have hd : ∀ f ∈ c.pending k, f.dlc ≤ 15 := fun f hm => by
    have e : c.pending k = _ := (streamInv_use (hs i j)).2.1
    rw [e] at hm
    have := (hf f (List.mem_of_mem_drop hm)).1
    omega
  obtain ⟨s', r, h1, h2⟩ := C110_can_finish ⟨i, c.pending k, c.sock k, j, c.got k⟩ hd (hs i j).1
  obtain ⟨c', r', a1, a2, a3, a4, a5, a6⟩ := links_lift_reaches r c k hit hjt rfl rfl rfl hc
  have hi' := linksInv_reaches faithful_bus hf r' hi
  refine ⟨c', r', paired_all hi'.2.1 ?_⟩
  obtain ⟨p', hp', hs'⟩ := hi'.1 k
  obtain ⟨-, a, b, hfs, ha, hq⟩ := hs' i j
  have hp' := hp' a6
  subst hp'
  simp only [a3, a4, h1, h2] at hfs hq
  have hb : b = [] := List.eq_nil_of_length_eq_zero hq.1
  rw [hb, List.append_nil, List.append_nil] at hfs
  rw [hfs, ha.1]
  exact hi'.2.2.1 k

/-- C136: and only then. Once all buses are cut and nothing waits any more, nothing more is passed on. -/
theorem C136_all_cut {c c' : Links} (hc : ∀ k, c.cut k = true ∧ (c.sock k).queue = []) (he : ∀ k, RealErr (c.sock k)) (h : Links.Reaches OnBus c c')
    (hm : ∀ k, (c.got k).length ≤ c.merged.length) : c'.merged = c.merged := by
  suffices hx : (∀ k, c'.cut k = true ∧ (c'.sock k).queue = []) ∧ (∀ k, RealErr (c'.sock k)) ∧ c'.got = c.got ∧ c'.merged = c.merged from hx.2.2.2
  induction h with
  | refl => exact ⟨hc, he, rfl, rfl⟩
  | snoc _ st ih =>
    obtain ⟨i1, i2, i3, i4⟩ := ih
    cases st with
    | write k arr before ans o ms hlt hp harr hv hw hms hcut =>
      have := hcut (i1 k).1
      subst this
      refine ⟨fun j => ⟨(i1 j).1, ?_⟩, fun j => ?_, i3, i4⟩
      · by_cases hj : j = k
        · subst hj
          simp only [put_same, List.append_nil]
          exact (i1 j).2
        · simp only [put_other _ _ hj]
          exact (i1 j).2
      · by_cases hj : j = k
        · subst hj
          simp only [put_same, List.append_nil]
          exact i2 j
        · simp only [put_other _ _ hj]
          exact i2 j
    | cut k arrive =>
      refine ⟨fun j => ?_, fun j => ?_, i3, i4⟩
      · by_cases hj : j = k
        · subst hj
          simp only [put_same, (i1 j).2, List.take_nil, and_self]
        · simp only [put_other _ _ hj]
          exact i1 j
      · by_cases hj : j = k
        · subst hj
          simp only [put_same]
          exact i2 j
        · simp only [put_other _ _ hj]
          exact i2 j
    | fail k e hne =>
      refine ⟨fun j => ?_, fun j => ?_, i3, i4⟩
      · by_cases hj : j = k
        · subst hj
          simp only [put_same]
          exact i1 j
        · simp only [put_other _ _ hj]
          exact i1 j
      · by_cases hj : j = k
        · subst hj
          simp only [put_same]
          exact fun e' h => by cases h; exact hne
        · simp only [put_other _ _ hj]
          exact i2 j
    | read k out before ans sock o hlt ha hr =>
      obtain ⟨r, hr', rfl⟩ := (Group.read_iface (List.getElem?_eq_getElem hlt)).1 hr
      obtain ⟨ans', r1, o', x1, x2, x3, t, x4, x5, -⟩ := read_once _ (i2 k) _ out
      rw [ha] at x1
      cases x1
      rw [hr'] at x2
      cases x2
      rw [(i1 k).2] at x4
      obtain ⟨rfl, hq⟩ := List.append_eq_nil_iff.1 x4.symm
      have hnil : r.out_frames.toList.take r.read = [] := List.eq_nil_of_length_eq_zero x5.1.symm
      refine ⟨fun j => ?_, fun j => ?_, ?_, ?_⟩
      · by_cases hj : j = k
        · subst hj
          simp only [put_same]
          exact ⟨(i1 j).1, hq⟩
        · simp only [put_other _ _ hj]
          exact i1 j
      · by_cases hj : j = k
        · subst hj
          simp only [put_same]
          exact fun e h => by rw [x3] at h; cases h
        · simp only [put_other _ _ hj]
          exact i2 j
      · simp only [hnil, List.append_nil]
        rw [← i3]
        funext j
        by_cases hj : j = k
        · subst hj
          exact put_same ..
        · exact put_other _ _ hj
      · simp only [hnil, List.append_nil, passOn, i3, i4]
        rw [List.drop_eq_nil_of_le (hm k), List.append_nil]

/-- Two buses; the first is cut before anything is sent. -/
example (a b x y : Iface) (fs : List FrameT) (hf : ∀ f ∈ fs, f.dlc ≤ 8 ∧ canId29 f.id ≠ 0) :
    ∃ c, Links.Reaches OnBus (.start ⟨[a, b]⟩ ⟨[x, y]⟩ fs) c ∧ c.cut 0 = true ∧ Paired Same fs c.merged := by
  let c0 : Links := Links.start ⟨[a, b]⟩ ⟨[x, y]⟩ fs
  have st : Links.Step OnBus c0 _ := .cut 0 0
  obtain ⟨c, r, h⟩ := C136_can_finish hf (.snoc (.refl _) st) (k := 1) (Nat.lt_succ_self 1) (Nat.lt_succ_self 1) rfl
  refine ⟨c, links_trans (.snoc (.refl _) st) r, ?_, h⟩
  have hcut : ∀ {p q : Links}, Links.Reaches OnBus p q → p.cut 0 = true → q.cut 0 = true := by
    intro p q h hp
    induction h with
    | refl => exact hp
    | snoc _ st ih =>
      cases st with
      | write => exact ih
      | cut k _ =>
        show (if 0 = k then true else _) = true
        split
        · rfl
        · exact ih
      | fail => exact ih
      | read => exact ih
  exact hcut r rfl

end Uavcan.SocketCan
