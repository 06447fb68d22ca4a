import Verif.Lemmas.Redundant
import Verif.Props.EventLoop

/-!
# C123: a dead bus does not stop the redundant ones; C124: waiting for room before writing
-/

namespace Uavcan.SocketCan
open Spec Can

theorem isOf_outs {k : Nat} {fd : Int} {fds : List Int} (evs : List TxEv) : ∀ {net net' : TxNet} {outs : List TxOut},
    absRun net fds (evs.filter (·.isOf k fd)) = some (outs, net') → ∀ o ∈ outs, o.k = k := by
  induction evs with
  | nil => intro net net' outs h; cases h; intro o ho; cases ho
  | cons ev evs ih =>
    intro net net' outs h
    rw [List.filter_cons] at h
    split at h
    · rename_i hk
      cases ev with
      | leave x n => exact ih h
      | write j fr n wakes =>
        have hj : j = k := by simpa [TxEv.isOf] using hk
        simp only [absRun] at h
        cases hx : fds[j]? with
        | none =>
          rw [hx] at h
          simp only [Option.map_eq_some_iff] at h
          obtain ⟨⟨os, n2⟩, h1, h2⟩ := h
          simp only [Prod.mk.injEq] at h2
          obtain ⟨rfl, rfl⟩ := h2
          intro o ho
          rcases List.mem_cons.1 ho with rfl | ho
          · exact hj
          · exact ih h1 o ho
        | some x =>
          rw [hx] at h
          simp only at h
          cases ho : one (net x) n wakes with
          | none => rw [ho] at h; cases h
          | some q =>
            obtain ⟨r, w, tx⟩ := q
            rw [ho] at h
            simp only [Option.map_eq_some_iff] at h
            obtain ⟨⟨os, n2⟩, h1, h2⟩ := h
            simp only [Prod.mk.injEq] at h2
            obtain ⟨rfl, rfl⟩ := h2
            intro o ho
            rcases List.mem_cons.1 ho with rfl | ho
            · exact hj
            · exact ih h1 o ho
    · exact ih h

theorem txFds_get {g : Group} {k : Nat} {i : Iface} (h : g.interfaces[k]? = some i) : (txFds g)[k]? = some i.fd := by
  simp [txFds, h]

theorem txFds_get_inv {g : Group} {k : Nat} {fd : Int} (h : (txFds g)[k]? = some fd) : ∃ i, g.interfaces[k]? = some i ∧ i.fd = fd := by
  simpa [txFds] using h

theorem arraysOk_filter {evs : List TxEv} (h : ArraysOk evs) (p : TxEv → Bool) : ArraysOk (evs.filter p) :=
  fun e he => h e ((List.mem_filter.1 he).1)

/-- Whether a history comes to its end. -/
theorem txRun_returns {net : TxNet} {g : Group} {evs : List TxEv} (ha : ArraysOk evs) :
    (∃ r, txRun net g evs = .ok (some r)) ↔ absRun net (txFds g) evs ≠ none := by
  have := txRun_abs evs net g ha
  cases h : absRun net (txFds g) evs with
  | none => rw [h] at this; simp [this]
  | some p =>
    rw [h] at this
    obtain ⟨g', -, h2⟩ := this
    simp [h2]

theorem abs_filter_none {net : TxNet} {fds : List Int} (hn : fds.Nodup) {k : Nat} {fd : Int} (hk : fds[k]? = some fd) (evs : List TxEv) :
    absRun net fds (evs.filter (·.isOf k fd)) = none ↔ solo k fd (net fd) evs = none := by
  constructor
  · intro h
    obtain ⟨j, x, hj, hs⟩ := solo_stops hn _ h
    by_cases e : j = k
    · subst e
      rw [hk] at hj
      cases hj
      rwa [solo_filter] at hs
    · exact absurd hs (solo_other e evs _)
  · intro h
    cases hr : absRun net fds (evs.filter (·.isOf k fd)) with
    | none => rfl
    | some p =>
      have := solo_of_abs hn hk _ hr
      rw [solo_filter, h] at this
      cases this

/-! ## C123 -/

/-- The property as stated in `properties.jsonl`: frames leave all network interfaces but one whenever a call waits for them; whatever is written, all
calls return. -/
def C123_Statement : Prop :=
  ∀ (net : TxNet) (g : Group) (evs : List TxEv) (d : Nat) (i : Iface), OwnSockets g → (∀ j ∈ g.interfaces, Tx.Usual (net j.fd)) → ArraysOk evs →
    g.interfaces[d]? = some i → Dead d i.fd evs → (∀ k, k ≠ d → Live k evs) → ∃ r, txRun net g evs = .ok (some r)

/-- C123, partial: as long as all calls return, each interface does what it would if it were used alone, with the same results: what happens at the others
makes no difference. And all calls return if they do for each interface used alone. Missing: a call that does not return stops all interfaces. -/
theorem C123_alone_partial {net : TxNet} {g : Group} (ho : OwnSockets g) {evs : List TxEv} (ha : ArraysOk evs) :
    (∀ outs net' g', txRun net g evs = .ok (some (outs, net', g')) → ∀ k i, g.interfaces[k]? = some i →
      ∃ net1 g1, txRun net g (evs.filter (·.isOf k i.fd)) = .ok (some (outs.filter (·.k == k), net1, g1)) ∧ net1 i.fd = net' i.fd) ∧
    ((∀ k i, g.interfaces[k]? = some i → ∃ r, txRun net g (evs.filter (·.isOf k i.fd)) = .ok (some r)) →
      ∃ r, txRun net g evs = .ok (some r)) := by
  have hn : (txFds g).Nodup := ho.1
  constructor
  · intro outs net' g' h k i hi
    have hk := txFds_get hi
    have h1 := txRun_abs evs net g ha
    cases hr : absRun net (txFds g) evs with
    | none => rw [hr] at h1; rw [h1] at h; cases h
    | some p =>
      obtain ⟨o1, n1⟩ := p
      rw [hr] at h1
      obtain ⟨g1, -, h2⟩ := h1
      rw [h] at h2
      cases h2
      have hs := solo_of_abs hn hk _ hr
      have h3 := txRun_abs (evs.filter (·.isOf k i.fd)) net g (arraysOk_filter ha _)
      cases hq : absRun net (txFds g) (evs.filter (·.isOf k i.fd)) with
      | none =>
        rw [abs_filter_none hn hk, hs] at hq
        cases hq
      | some q =>
        obtain ⟨o2, n2⟩ := q
        rw [hq] at h3
        obtain ⟨g2, -, h4⟩ := h3
        have hs2 := solo_of_abs hn hk _ hq
        rw [solo_filter, hs] at hs2
        simp only [Option.some.injEq, Prod.mk.injEq] at hs2
        have : o2.filter (·.k == k) = o2 := List.filter_eq_self.2 fun o ho => by simpa using isOf_outs evs hq o ho
        rw [this] at hs2
        exact ⟨n2, g2, by rw [h4, hs2.1], hs2.2.symm⟩
  · intro h
    rw [txRun_returns ha]
    intro hr
    obtain ⟨k, fd, hk, hs⟩ := solo_stops hn _ hr
    obtain ⟨i, hi, rfl⟩ := txFds_get_inv hk
    have := h k i hi
    rw [txRun_returns (arraysOk_filter ha _), ne_eq, abs_filter_none hn hk] at this
    exact this hs

/-- C123, partial: with one dead bus, exactly when all calls return: its transmit queue is shorter than the send buffer of its socket, or no more frames are
written than the send buffer takes. Missing: the other cases. -/
theorem C123_returns_iff_partial {net : TxNet} {g : Group} {evs : List TxEv} {d : Nat} {i : Iface} (ho : OwnSockets g)
    (hu : ∀ j ∈ g.interfaces, Tx.Usual (net j.fd)) (ha : ArraysOk evs) (hi : g.interfaces[d]? = some i) (hd : Dead d i.fd evs)
    (hl : ∀ k, k ≠ d → Live k evs) :
    ((∃ r, txRun net g evs = .ok (some r)) ↔ ((net i.fd).queue < (net i.fd).room ∨ framesFor d evs ≤ (net i.fd).room)) ∧
    ((¬ ∃ r, txRun net g evs = .ok (some r)) → txRun net g evs = .ok none) := by
  have hn : (txFds g).Nodup := ho.1
  have hk := txFds_get hi
  have hm : i ∈ g.interfaces := List.mem_of_getElem? hi
  constructor
  · rw [txRun_returns ha]
    have hs := solo_dead evs (hu i hm) hd
    constructor
    · intro h
      cases hr : absRun net (txFds g) evs with
      | none => exact absurd hr h
      | some p =>
        have := solo_of_abs hn hk _ hr
        rw [this] at hs
        simp only [reduceCtorEq, false_iff] at hs
        omega
    · intro h hr
      obtain ⟨k, fd, hk', hs'⟩ := solo_stops hn _ hr
      by_cases e : k = d
      · subst e
        rw [hk] at hk'
        cases hk'
        have := hs.1 hs'
        omega
      · obtain ⟨j, hj, rfl⟩ := txFds_get_inv hk'
        exact solo_live evs (hu j (List.mem_of_getElem? hj)) (hl k e) hs'
  · intro h
    rw [txRun_returns ha, Decidable.not_not] at h
    have := txRun_abs evs net g ha
    rw [h] at this
    exact this

/-- C123, partial: a dead bus never stops the others, whatever is written, exactly if its transmit queue is shorter than the send buffer of its socket.
Missing: longer queues. -/
theorem C123_never_stops_iff_partial {net : TxNet} {g : Group} {d : Nat} {i : Iface} (ho : OwnSockets g)
    (hu : ∀ j ∈ g.interfaces, Tx.Usual (net j.fd)) (hi : g.interfaces[d]? = some i) :
    (∀ evs, ArraysOk evs → Dead d i.fd evs → (∀ k, k ≠ d → Live k evs) → ∃ r, txRun net g evs = .ok (some r)) ↔
      (net i.fd).queue < (net i.fd).room := by
  constructor
  · intro h
    let f : FrameT := ⟨0, Vector.replicate 64 0, 0, Time.TimePoint.fromMicrosecond 0⟩
    let evs : List TxEv := List.replicate ((net i.fd).room + 1) (.write d (Vector.replicate 4 f) 1 [])
    have hmem : ∀ ev ∈ evs, ev = .write d (Vector.replicate 4 f) 1 [] := fun ev he => List.eq_of_mem_replicate he
    have ha : ArraysOk evs := fun ev he => by rw [hmem ev he]; show 1 ≤ 4; omega
    have hd : Dead d i.fd evs := fun ev he _ => by rw [hmem ev he]; rfl
    have hl : ∀ k, k ≠ d → Live k evs := fun k hk ev he => by rw [hmem ev he]; intro e; exact absurd e.symm hk
    have hf : ∀ m, framesFor d (List.replicate m (.write d (Vector.replicate 4 f) 1 [])) = m := by
      intro m
      induction m with
      | zero => rfl
      | succ m ih => rw [List.replicate_succ, framesFor, if_pos rfl, ih]; omega
    have := (C123_returns_iff_partial ho hu ha hi hd hl).1.1 (h evs ha hd hl)
    rw [hf] at this
    omega
  · intro h evs ha hd hl
    exact (C123_returns_iff_partial ho hu ha hi hd hl).1.2 (Or.inl h)

/-- C123, partial: waiting with `select` first does not help: it says `Success` as soon as any interface has room, and the call for the one that has none never
returns. -/
theorem C123_select_partial {rx rx' : Net} {g g' : Group} {usec : Int} {wr : Int → Bool} {s : Bool} {outs : List GroupOut}
    (h : Loops rx g [.select usec false wr s] outs rx' g') (ho : OwnSockets g) (he : ∀ j ∈ g.interfaces, (rx j.fd).err = none)
    {a : Iface} (hm : a ∈ g.interfaces) (hw : wr a.fd = true) {d : Nat} {i : Iface} (hi : g.interfaces[d]? = some i) {net : TxNet}
    (hu : Tx.Usual (net i.fd)) (hr : (net i.fd).room = 0) :
    outs = [.select .Success] ∧
    ∀ frames n wakes, 0 < n → n ≤ 4 → wakes.sum = 0 → txRun net g [.write d frames n wakes] = .ok none := by
  obtain ⟨r, h1, -, -, h2, -⟩ := C113_select h ho
  have : r = .Success := h2.2 ⟨he, a, hm, Or.inr ⟨rfl, hw⟩⟩
  subst this
  refine ⟨h1, fun frames n wakes h0 h4 hz => ?_⟩
  have hst := txStep_write net g d frames n wakes h4 hi
  rw [(one_none_iff hu n wakes).2 ⟨by omega, by omega⟩] at hst
  simp only [txRun, hst, bind, Outcome.bind, pure]

/-- Two interfaces; the send buffers take two messages, the transmit queues ten; and the other way round. -/
def twoBuffers (room queue : Nat) : TxNet := fun _ => ⟨Nonblocking socketType, true, 72, room, queue⟩

theorem twoBuffers_usual (room queue : Nat) : ∀ j ∈ twoIfaces.interfaces, Tx.Usual (twoBuffers room queue j.fd) := fun _ _ => ⟨rfl, rfl, rfl⟩

/-- C123 is false of the code: the send buffer of the dead interface takes two messages, its transmit queue ten. -/
theorem C123_full_statement_fails : ¬ C123_Statement := fun h => by
  have := (C123_never_stops_iff_partial (d := 0) (i := Iface.mk' 0 "can0" 3) twoIfaces_own (twoBuffers_usual 2 10) rfl).1
    (fun evs ha hd hl => h _ _ evs 0 _ twoIfaces_own (twoBuffers_usual 2 10) ha rfl hd hl)
  have : 10 < 2 := this
  omega

/-- With a shorter transmit queue: the first interface is dead, the second takes two frames at a time. -/
example (frames : Vector FrameT FramesLen) :
    let evs : List TxEv := [.write 0 frames 4 [], .write 1 frames 4 [2, 2], .write 0 frames 4 [0], .write 1 frames 4 [1, 3]]
    (∃ r, txRun (twoBuffers 10 2) twoIfaces evs = .ok (some r)) ∧ txRun (twoBuffers 2 10) twoIfaces evs = .ok none := by
  intro evs
  have ha : ArraysOk evs := by
    intro ev he
    simp only [evs, List.mem_cons, List.not_mem_nil, or_false] at he
    rcases he with rfl | rfl | rfl | rfl <;> exact Nat.le_refl 4
  have hd : Dead 0 3 evs := by
    intro ev he ho
    simp only [evs, List.mem_cons, List.not_mem_nil, or_false] at he
    rcases he with rfl | rfl | rfl | rfl <;> first | rfl | simp [TxEv.isOf] at ho
  have hl : ∀ k, k ≠ 0 → Live k evs := by
    intro k hk ev he
    simp only [evs, List.mem_cons, List.not_mem_nil, or_false] at he
    rcases he with rfl | rfl | rfl | rfl <;> simp only <;> intro e <;> first | omega | decide
  have h1 := C123_returns_iff_partial (i := Iface.mk' 0 "can0" 3) twoIfaces_own (twoBuffers_usual 10 2) ha rfl hd hl
  have h2 := C123_returns_iff_partial (i := Iface.mk' 0 "can0" 3) twoIfaces_own (twoBuffers_usual 2 10) ha rfl hd hl
  refine ⟨h1.1.2 (Or.inl (show 2 < 10 by omega)), h2.2 fun h => ?_⟩
  rcases h2.1.1 h with h | h
  · exact absurd (show 10 < 2 from h) (by omega)
  · exact absurd (show 8 ≤ 2 from h) (by omega)

/-! ## C124 -/

/-- The property as stated in `properties.jsonl`: whenever the socket has room, as `select` says, a frame that is written is taken, without waiting. -/
def C124_Statement : Prop :=
  ∀ (cap qlen : Nat) (fd : Int) (net : TxNet) (g : Group), Waits cap qlen fd net g → hasRoom cap (net fd) = true → ∀ frames,
    ∃ net' g', txStep net g (.write 0 frames 1 []) = .ok (some ([⟨0, .Success, 1⟩], net', g'))

/-- What is known of every such history: `u` frames have been written and not left. -/
theorem waits_inv {cap qlen : Nat} {fd : Int} {net : TxNet} {g : Group} (h : Waits cap qlen fd net g) :
    txFds g = [fd] ∧ ∃ u, u ≤ cap ∧ u ≤ qlen ∧ net fd = ⟨Nonblocking socketType, true, 72, cap - u, qlen - u⟩ := by
  induction h with
  | start h1 h2 => exact ⟨by simp [txFds, h2], 0, by omega, by omega, h1⟩
  | @leave net g n _ hn ih =>
    obtain ⟨a, u, b, c, d⟩ := ih
    rw [d] at hn
    simp only at hn
    refine ⟨a, u - n, by omega, by omega, ?_⟩
    simp only [TxNet.set, if_true, Tx.leave, d]
    rw [show cap - u + n = cap - (u - n) by omega, show qlen - u + n = qlen - (u - n) by omega]
  | @write net net' g g' frames outs _ hr hw ih =>
    obtain ⟨a, u, b, c, d⟩ := ih
    have hu : Tx.Usual (net fd) := by rw [d]; exact ⟨rfl, rfl, rfl⟩
    obtain ⟨i, hi, rfl⟩ := txFds_get_inv (k := 0) (fd := fd) (g := g) (by rw [a]; rfl)
    have hst := txStep_write net g 0 frames 1 [] (by omega) hi
    cases ho : one (net i.fd) 1 [] with
    | none => rw [ho] at hst; rw [hst] at hw; cases hw
    | some q =>
      obtain ⟨r, w, tx⟩ := q
      rw [ho] at hst
      obtain ⟨g1, e1, e2⟩ := hst
      rw [hw] at e2
      cases e2
      obtain ⟨-, v, v1, v2, v3, v4⟩ := one_some hu ho
      have : v = 0 := by simpa using v1
      subst this
      rw [d] at v2 v3 v4
      simp only at v2 v3 v4
      refine ⟨e1.trans a, u + w, by omega, by omega, ?_⟩
      simp only [TxNet.set, if_true, v2]
      rw [show cap - u + 0 - w = cap - (u + w) by omega, show qlen - u + 0 - w = qlen - (u + w) by omega]

/-- What a call does in such a history. -/
theorem waits_write {cap qlen : Nat} {fd : Int} {net : TxNet} {g : Group} (h : Waits cap qlen fd net g) (hr : hasRoom cap (net fd) = true)
    (frames : Vector FrameT FramesLen) (n : Nat) (h0 : n ≠ 0) (h4 : n ≤ 4) (hn : n = 1 ∨ 7 ≤ cap) :
    ∃ g', txFds g' = txFds g ∧ txStep net g (.write 0 frames n []) = .ok (some ([⟨0,
      if min n (net fd).queue = 0 then .BufferFull else if min n (net fd).queue < n then .SuccessPartial else .Success, min n (net fd).queue⟩],
      net.set fd { net fd with room := (net fd).room - min n (net fd).queue, queue := (net fd).queue - min n (net fd).queue }, g')) := by
  obtain ⟨a, u, b, c, d⟩ := waits_inv h
  have hu : Tx.Usual (net fd) := by rw [d]; exact ⟨rfl, rfl, rfl⟩
  obtain ⟨i, hi, rfl⟩ := txFds_get_inv (k := 0) (fd := fd) (g := g) (by rw [a]; rfl)
  have hst := txStep_write net g 0 frames n [] h4 hi
  have hr' : 2 * (cap - (net i.fd).room) < cap := by simpa [hasRoom] using hr
  have d1 : (net i.fd).room = cap - u := by rw [d]
  have hno := one_none_iff hu n []
  cases ho : one (net i.fd) n [] with
  | none =>
    have := hno.1 ho
    simp only [List.sum_nil] at this
    omega
  | some q =>
    obtain ⟨r, w, tx⟩ := q
    rw [ho] at hst
    obtain ⟨g1, e1, e2⟩ := hst
    obtain ⟨w1, v, v1, v2, v3, v4⟩ := one_some hu ho
    have : v = 0 := by simpa using v1
    subst this
    have hw : w = min n (net i.fd).queue := by split at w1 <;> omega
    have hres := one_result hu h0 ho
    subst hw
    refine ⟨g1, e1, ?_⟩
    rw [e2, hres, v2]
    rfl

/-- C124: what `select` says, told not to ignore writing, if nothing can be read: `Success` exactly if the socket has room. -/
theorem C124_select {rx rx' : Net} {g g' : Group} {usec : Int} {s : Bool} {outs : List GroupOut} {cap qlen : Nat} {fd : Int} {net : TxNet}
    (hw : Waits cap qlen fd net g) (hfd : 0 ≤ fd) (h : Loops rx g [.select usec false (fun x => hasRoom cap (net x)) s] outs rx' g')
    (he : (rx fd).err = none) (hq : (rx fd).queue = []) : outs = [.select .Success] ↔ hasRoom cap (net fd) = true := by
  have hf := (waits_inv hw).1
  have hi : ∀ i ∈ g.interfaces, i.fd = fd := fun i hi => by
    have : i.fd ∈ txFds g := List.mem_map.2 ⟨i, hi, rfl⟩
    rw [hf] at this
    simpa using this
  have ho : OwnSockets g := ⟨by rw [show g.interfaces.map Iface.fd = txFds g from rfl, hf]; simp, fun i h => by rw [hi i h]; exact hfd⟩
  obtain ⟨i, h0, -⟩ := txFds_get_inv (k := 0) (fd := fd) (g := g) (by rw [hf]; rfl)
  have hm := List.mem_of_getElem? h0
  obtain ⟨r, h1, -, -, h2, -⟩ := C113_select h ho
  subst h1
  simp only [List.cons.injEq, GroupOut.select.injEq, and_true]
  rw [h2]
  constructor
  · rintro ⟨-, j, hj, h3 | h3⟩
    · rw [hi j hj] at h3; exact absurd hq h3
    · have := h3.2; rw [hi j hj] at this; exact this
  · intro h3
    exact ⟨fun j hj => by rw [hi j hj]; exact he, i, hm, Or.inr ⟨rfl, by rw [hi i hm]; exact h3⟩⟩

/-- C124, partial: a `write` after that does not wait, if the send buffer takes at least seven messages; it takes as many frames as the transmit queue does, and
says so. Missing: it may take none. -/
theorem C124_returns_partial {cap qlen : Nat} {fd : Int} {net : TxNet} {g : Group} (h : Waits cap qlen fd net g) (hr : hasRoom cap (net fd) = true)
    (frames : Vector FrameT FramesLen) (n : Nat) (h0 : n ≠ 0) (h4 : n ≤ 4) (hc : 7 ≤ cap) :
    ∃ net' g', txStep net g (.write 0 frames n []) = .ok (some ([⟨0,
      if (net fd).queue = 0 then .BufferFull else if (net fd).queue < n then .SuccessPartial else .Success, min n (net fd).queue⟩], net', g')) := by
  obtain ⟨g', -, hw⟩ := waits_write h hr frames n h0 h4 (Or.inr hc)
  have e : ∀ q : Nat, (if min n q = 0 then Result.BufferFull else if min n q < n then .SuccessPartial else .Success) =
      if q = 0 then .BufferFull else if q < n then .SuccessPartial else .Success := by
    intro q
    by_cases h1 : q = 0
    · rw [if_pos h1, if_pos (by omega)]
    · rw [if_neg h1, if_neg (by omega)]
      by_cases h2 : q < n
      · rw [if_pos h2, if_pos (by omega)]
      · rw [if_neg h2, if_neg (by omega)]
  rw [e] at hw
  exact ⟨_, g', hw⟩

/-- Any number of frames up to the length of the transmit queue can come to wait, if the socket has room for them all. -/
theorem waits_fill {cap qlen : Nat} (fd : Int) (hc : 2 * qlen < cap) (u : Nat) (hu : u ≤ qlen) :
    ∃ net g, Waits cap qlen fd net g ∧ net fd = ⟨Nonblocking socketType, true, 72, cap - u, qlen - u⟩ := by
  induction u with
  | zero => exact ⟨fun _ => ⟨_, _, _, _, _⟩, _, .start (i := Iface.mk' 0 "can0" fd) rfl rfl, rfl⟩
  | succ u ih =>
    obtain ⟨net, g, h, e⟩ := ih (by omega)
    have hr : hasRoom cap (net fd) = true := by simp only [hasRoom, e]; apply decide_eq_true; omega
    obtain ⟨g', -, hw⟩ := waits_write h hr (Vector.replicate 4 ⟨0, Vector.replicate 64 0, 0, Time.TimePoint.fromMicrosecond 0⟩) 1 (by omega) (by omega)
      (Or.inl rfl)
    refine ⟨_, g', .write h hr hw, ?_⟩
    simp only [TxNet.set, if_true, e]
    rw [show min 1 (qlen - u) = 1 by omega, show cap - u - 1 = cap - (u + 1) by omega, show qlen - u - 1 = qlen - (u + 1) by omega]

/-- C124, partial: exactly if the send buffer takes no more than twice the messages that the transmit queue takes, a frame that is written when `select` says
`Success` is always taken. Missing: shorter queues. -/
theorem C124_taken_iff_partial (cap qlen : Nat) (fd : Int) :
    (∀ net g, Waits cap qlen fd net g → hasRoom cap (net fd) = true → ∀ frames,
      ∃ net' g', txStep net g (.write 0 frames 1 []) = .ok (some ([⟨0, .Success, 1⟩], net', g'))) ↔ cap ≤ 2 * qlen := by
  constructor
  · intro h
    by_cases hc : cap ≤ 2 * qlen
    · exact hc
    · obtain ⟨net, g, hw, e⟩ := waits_fill (cap := cap) (qlen := qlen) fd (by omega) qlen (Nat.le_refl _)
      have hr : hasRoom cap (net fd) = true := by simp only [hasRoom, e]; apply decide_eq_true; omega
      let fr : Vector FrameT FramesLen := Vector.replicate 4 ⟨0, Vector.replicate 64 0, 0, Time.TimePoint.fromMicrosecond 0⟩
      obtain ⟨n1, g1, h1⟩ := h net g hw hr fr
      obtain ⟨g2, -, h2⟩ := waits_write hw hr fr 1 (by omega) (by omega) (Or.inl rfl)
      rw [h1] at h2
      simp only [e, Nat.sub_self, Nat.min_zero, if_true, Outcome.ok.injEq, Option.some.injEq, Prod.mk.injEq, List.cons.injEq, TxOut.mk.injEq,
        reduceCtorEq, false_and, and_false] at h2
  · intro hc net g hw hr frames
    obtain ⟨g', -, h1⟩ := waits_write hw hr frames 1 (by omega) (by omega) (Or.inl rfl)
    obtain ⟨-, u, b, c, d⟩ := waits_inv hw
    have hr' : 2 * (cap - (net fd).room) < cap := by simpa [hasRoom] using hr
    rw [d] at hr'
    simp only at hr'
    have hq : min 1 (net fd).queue = 1 := by rw [d]; simp only; omega
    rw [hq] at h1
    exact ⟨_, g', h1⟩

/-- C124, partial: with a shorter transmit queue it comes to this: if no frame leaves, `select` says `Success` at once and `write` says `BufferFull`, time and
again: the application does not rest. -/
theorem C124_spins_partial {cap qlen : Nat} (fd : Int) (hc : 2 * qlen < cap) :
    ∃ net g, Waits cap qlen fd net g ∧ hasRoom cap (net fd) = true ∧
      ∀ m frames, ∃ g', txRun net g (List.replicate m (.write 0 frames 1 [])) = .ok (some (List.replicate m ⟨0, .BufferFull, 0⟩, net, g')) := by
  obtain ⟨net, g, hw, e⟩ := waits_fill (cap := cap) (qlen := qlen) fd hc qlen (Nat.le_refl _)
  have hr : hasRoom cap (net fd) = true := by simp only [hasRoom, e]; apply decide_eq_true; omega
  refine ⟨net, g, hw, hr, fun m frames => ?_⟩
  have hself : net.set fd { net fd with room := (net fd).room - 0, queue := (net fd).queue - 0 } = net := by
    funext x; simp only [TxNet.set]; split
    · rename_i hx; subst hx; rfl
    · rfl
  have hq : min 1 (net fd).queue = 0 := by rw [e]; simp
  clear e
  induction m generalizing g with
  | zero => exact ⟨g, rfl⟩
  | succ m ih =>
    obtain ⟨g1, -, h1⟩ := waits_write hw hr frames 1 (by omega) (by omega) (Or.inl rfl)
    rw [hq, hself] at h1
    obtain ⟨g2, h2⟩ := ih g1 (.write hw hr h1)
    refine ⟨g2, ?_⟩
    simp only [List.replicate_succ, txRun, h1, bind, Outcome.bind, h2, pure, if_true, List.cons_append, List.nil_append]

/-- A send buffer for 20 messages and a transmit queue for ten: no frame is refused. There are such histories, in which the socket has room, and in which it has none. -/
example : (∀ net g, Waits 20 10 3 net g → hasRoom 20 (net 3) = true → ∀ frames,
      ∃ net' g', txStep net g (.write 0 frames 1 []) = .ok (some ([⟨0, .Success, 1⟩], net', g'))) ∧
    Waits 20 10 3 (fun _ => ⟨Nonblocking socketType, true, 72, 20, 10⟩) ⟨[Iface.mk' 0 "can0" 3]⟩ ∧
    hasRoom 20 ⟨Nonblocking socketType, true, 72, 11, 1⟩ = true ∧ hasRoom 20 ⟨Nonblocking socketType, true, 72, 10, 0⟩ = false :=
  ⟨(C124_taken_iff_partial 20 10 3).2 (by omega), .start rfl rfl, by decide, by decide⟩

/-- C124 is false of the code: a send buffer for 200 messages and a transmit queue for ten. -/
theorem C124_full_statement_fails : ¬ C124_Statement := fun h => by
  have := (C124_taken_iff_partial 200 10 3).1 (h 200 10 3)
  omega

end Uavcan.SocketCan
