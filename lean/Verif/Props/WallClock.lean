import Verif.Spec.WallClock
import Verif.Props.SocketCtl

/-!
# C105: time stamps never go back
-/

namespace Uavcan.SocketCan
open Spec Can

/-- The messages a program receives in a history of calls are those that arrive, in order. -/
def Received (ops : List KOp) (ts : List Timed) : Prop := ops.flatMap arrivals = ts.map Timed.arrival

/-- The messages to be delivered. -/
def deliverable (ts : List Timed) : List Timed := ts.filter fun t => Delivers t.frame.can_id

/-- The property as stated in `properties.jsonl`. -/
def C105_Statement : Prop :=
  ∀ (o : SockOpts), o.ts = true → ∀ (index : Nat) (name : String) (fd : Int) (junk : Vector (Vector Byte ControlSize) FramesLen)
    (ops : List KOp), (∀ op ∈ ops, ValidKOp op) → ∀ (day : Int) (es : List TEv), (∀ t ∈ timeline 0 0 day es, t.Plausible) →
    Received ops (timeline 0 0 day es) →
    ∃ fs, delivery o (CIface.mk' index name fd junk) ops = .ok fs ∧
      fs.Pairwise fun f g => f.timestamp.toMicrosecond ≤ g.timestamp.toMicrosecond

theorem krun_append (o : SockOpts) (s : CIface) (ops ops' : List KOp) :
    krun o s (ops ++ ops') = (do let s' ← krun o s ops; krun o s' ops') := by
  induction ops generalizing s with
  | nil => rfl
  | cons op ops ih =>
    simp only [List.cons_append, krun]
    cases kstep o s op with
    | ub u => rfl
    | ok s' => simp only [Outcome.ok_bind]; exact ih s'

/-- The stamp on a message, in microseconds. -/
theorem arrival_micros {t : Timed} (h : t.Plausible) : (t.arrival.micros : Int) = t.day ∧ t.arrival.Sane := by
  obtain ⟨h1, h2⟩ := h
  have e1 : (BitVec.ofInt 64 (t.day / 1000000)).toNat = (t.day / 1000000).toNat := by
    rw [BitVec.toNat_ofInt, Int.emod_eq_of_lt (by omega) (by omega)]
  have e2 : (BitVec.ofInt 64 (t.day % 1000000)).toNat = (t.day % 1000000).toNat := by
    rw [BitVec.toNat_ofInt, Int.emod_eq_of_lt (by omega) (by omega)]
  simp only [Arrival.micros, Arrival.Sane, Timed.arrival, e1, e2]
  omega

/-- What is delivered, and when it was stamped. -/
theorem delivery_times (o : SockOpts) (ho : o.ts = true) (index : Nat) (name : String) (fd : Int)
    (junk : Vector (Vector Byte ControlSize) FramesLen) (pre ops : List KOp) (hp : ∀ op ∈ pre, ValidKOp op)
    (hv : ∀ op ∈ ops, ValidKOp op) (hs : ∀ a ∈ ops.flatMap arrivals, a.Sane) :
    ∃ s fs, krun o (CIface.mk' index name fd junk) pre = .ok s ∧ delivery o s ops = .ok fs ∧
      fs.map (fun f => (f.id, f.timestamp.toMicrosecond)) =
        ((ops.flatMap arrivals).filter fun a => Delivers a.frame.can_id).map fun a => (a.frame.can_id, (a.micros : Int)) := by
  induction ops generalizing pre with
  | nil =>
    obtain ⟨s, hs', -⟩ := C69_history o ho index name fd junk pre hp
    exact ⟨s, [], hs', rfl, rfl⟩
  | cons op ops ih =>
    have hpre : ∀ x ∈ pre ++ [op], ValidKOp x := by
      intro x hx
      rcases List.mem_append.1 hx with h | h
      · exact hp x h
      · rw [List.mem_singleton.1 h]; exact hv op (List.mem_cons_self ..)
    obtain ⟨s', fs, h1, h2, h3⟩ := ih (pre ++ [op]) hpre (fun x hx => hv x (List.mem_cons_of_mem _ hx))
      (fun a ha => hs a (by rw [List.flatMap_cons]; exact List.mem_append_right _ ha))
    obtain ⟨s, hs', -⟩ := C69_history o ho index name fd junk pre hp
    rw [krun_append, hs', Outcome.ok_bind] at h1
    have hk : kstep o s op = .ok s' := by
      simp only [krun] at h1
      obtain ⟨x, e1, e2⟩ := Outcome.bind_eq_ok.1 h1
      rw [e1]; exact e2
    cases op with
    | write f n a =>
      refine ⟨s, fs, hs', ?_, h3⟩
      simp only [delivery, hk, Outcome.ok_bind]
      exact h2
    | fail out e =>
      refine ⟨s, fs, hs', ?_, h3⟩
      simp only [delivery, hk, Outcome.ok_bind]
      exact h2
    | arrive out as =>
      have hva := hv _ (List.mem_cons_self ..)
      obtain ⟨s2, r, ds, k1, k2, k3, -, k5, k6⟩ := C69_times o index name fd junk pre hp out as hva.1 hva.2
        (fun a ha => hs a (by rw [List.flatMap_cons]; exact List.mem_append_left _ ha))
      rw [hs'] at k1
      cases k1
      have hri : r.iface = s' := by
        simp only [kstep, k2, Outcome.ok_bind] at hk
        cases hk; rfl
      have hlen : ds.length ≤ 4 := by rw [k3]; exact Nat.le_trans (List.length_filter_le ..) hva.2
      refine ⟨s, r.out_frames.toList.take r.read ++ fs, hs', ?_, ?_⟩
      · simp only [delivery, k2, Outcome.ok_bind, hri, h2]
        rfl
      · rw [List.map_append, h3, List.flatMap_cons, List.filter_append, List.map_append]
        congr 1
        show _ = (as.filter _).map _
        rw [← k3]
        apply List.ext_getElem
        · simp [k5, FramesLen]; omega
        · intro j hj1 hj2
          have hj : j < ds.length := by simpa using hj2
          obtain ⟨g1, g2⟩ := k6 j (by omega) hj
          simp only [List.getElem_map, List.getElem_take, Vector.getElem_toList]
          rw [g1, g2, if_pos ho]

theorem timeline_day (p : Nat) (c d : Int) (es : List TEv) : ∀ t ∈ timeline p c d es, t.day - t.passed - t.changed = d - p - c := by
  induction es generalizing p c d with
  | nil => intro t h; cases h
  | cons e es ih =>
    intro t h
    cases e with
    | pass us => have := ih _ _ _ t h; omega
    | set x => have := ih _ _ _ t h; omega
    | msg a b =>
      rcases List.mem_cons.1 h with rfl | h
      · rfl
      · exact ih _ _ _ t h

/-- C105, partial: the frames delivered are those of the messages to be delivered, in the order of arrival, and the difference
between the time stamps of any two of them is the time that passed between their arrivals plus what the time of day was
changed by meanwhile. -/
theorem C105_difference_partial (o : SockOpts) (ho : o.ts = true) (index : Nat) (name : String) (fd : Int)
    (junk : Vector (Vector Byte ControlSize) FramesLen) (ops : List KOp) (hv : ∀ op ∈ ops, ValidKOp op) (day : Int)
    (es : List TEv) (hp : ∀ t ∈ timeline 0 0 day es, t.Plausible) (hr : Received ops (timeline 0 0 day es)) :
    ∃ fs ts, delivery o (CIface.mk' index name fd junk) ops = .ok fs ∧ ts = deliverable (timeline 0 0 day es) ∧
      fs.length = ts.length ∧
      (∀ j (h : j < fs.length) (h' : j < ts.length), fs[j].id = ts[j].frame.can_id ∧ fs[j].timestamp.toMicrosecond = ts[j].day) ∧
      ∀ i j (hi : i < fs.length) (hj : j < fs.length) (hi' : i < ts.length) (hj' : j < ts.length),
        fs[j].timestamp.toMicrosecond - fs[i].timestamp.toMicrosecond =
          ((ts[j].passed : Int) - ts[i].passed) + (ts[j].changed - ts[i].changed) := by
  have hsane : ∀ a ∈ ops.flatMap arrivals, a.Sane := by
    rw [hr]
    intro a ha
    obtain ⟨t, ht, rfl⟩ := List.mem_map.1 ha
    exact (arrival_micros (hp t ht)).2
  obtain ⟨s, fs, h1, h2, h3⟩ := delivery_times o ho index name fd junk [] ops (by simp) hv hsane
  cases h1
  rw [hr, List.filter_map, List.map_map] at h3
  have h3' : fs.map (fun f => (f.id, f.timestamp.toMicrosecond)) =
      (deliverable (timeline 0 0 day es)).map fun t => (t.frame.can_id, t.day) := by
    rw [h3]
    apply List.map_congr_left
    intro t ht
    have := (arrival_micros (hp t (List.mem_filter.1 ht).1)).1
    simp only [Function.comp]
    rw [this]
    rfl
  have hlen : fs.length = (deliverable (timeline 0 0 day es)).length := by
    have := congrArg List.length h3'
    simpa using this
  have hget : ∀ j (h : j < fs.length) (h' : j < (deliverable (timeline 0 0 day es)).length),
      fs[j].id = (deliverable (timeline 0 0 day es))[j].frame.can_id ∧
      fs[j].timestamp.toMicrosecond = (deliverable (timeline 0 0 day es))[j].day := by
    intro j h h'
    have e : (fs.map (fun f => (f.id, f.timestamp.toMicrosecond)))[j]? =
        ((deliverable (timeline 0 0 day es)).map fun t => (t.frame.can_id, t.day))[j]? := by rw [h3']
    rw [List.getElem?_map, List.getElem?_map, List.getElem?_eq_getElem h, List.getElem?_eq_getElem h'] at e
    simp only [Option.map_some, Option.some.injEq, Prod.mk.injEq] at e
    exact e
  refine ⟨fs, _, h2, rfl, hlen, hget, ?_⟩
  intro i j hi hj hi' hj'
  rw [(hget j hj hj').2, (hget i hi hi').2]
  have a1 := timeline_day 0 0 day es _ (List.mem_filter.1 (List.getElem_mem hj')).1
  have a2 := timeline_day 0 0 day es _ (List.mem_filter.1 (List.getElem_mem hi')).1
  omega

theorem timeline_passed (p : Nat) (c d : Int) (es : List TEv) :
    (∀ t ∈ timeline p c d es, p ≤ t.passed) ∧ (timeline p c d es).Pairwise fun a b => a.passed ≤ b.passed := by
  induction es generalizing p c d with
  | nil => exact ⟨fun t h => (by cases h), List.Pairwise.nil⟩
  | cons e es ih =>
    cases e with
    | pass us =>
      obtain ⟨i1, i2⟩ := ih (p + us) c (d + us)
      exact ⟨fun t h => by have := i1 t h; omega, i2⟩
    | set x => exact ih p (c + x) (d + x)
    | msg a b =>
      obtain ⟨i1, i2⟩ := ih p c d
      refine ⟨fun t h => ?_, List.Pairwise.cons (fun t h => i1 t h) i2⟩
      rcases List.mem_cons.1 h with rfl | h
      · exact Nat.le_refl _
      · exact i1 t h

theorem timeline_changed {es : List TEv} (he : ∀ x, TEv.set x ∈ es → 0 ≤ x) (p : Nat) (c d : Int) :
    (∀ t ∈ timeline p c d es, c ≤ t.changed) ∧ (timeline p c d es).Pairwise fun a b => a.changed ≤ b.changed := by
  induction es generalizing p c d with
  | nil => exact ⟨fun t h => (by cases h), List.Pairwise.nil⟩
  | cons e es ih =>
    have ih := ih (fun x hx => he x (List.mem_cons_of_mem _ hx))
    cases e with
    | pass us => exact ih (p + us) c (d + us)
    | set x =>
      obtain ⟨i1, i2⟩ := ih p (c + x) (d + x)
      have := he x (List.mem_cons_self ..)
      exact ⟨fun t h => by have := i1 t h; omega, i2⟩
    | msg a b =>
      obtain ⟨i1, i2⟩ := ih p c d
      refine ⟨fun t h => ?_, List.Pairwise.cons (fun t h => i1 t h) i2⟩
      rcases List.mem_cons.1 h with rfl | h
      · exact Int.le_refl _
      · exact i1 t h

/-- C105, partial: time stamps never go back exactly if, between any two frames delivered, the time of day was never set back by
more than the time that passed; in particular if it was never set back at all. Missing: they should not depend on the time of
day. -/
theorem C105_iff_partial (o : SockOpts) (ho : o.ts = true) (index : Nat) (name : String) (fd : Int)
    (junk : Vector (Vector Byte ControlSize) FramesLen) (ops : List KOp) (hv : ∀ op ∈ ops, ValidKOp op) (day : Int)
    (es : List TEv) (hp : ∀ t ∈ timeline 0 0 day es, t.Plausible) (hr : Received ops (timeline 0 0 day es)) :
    ∃ fs, delivery o (CIface.mk' index name fd junk) ops = .ok fs ∧
      ((fs.Pairwise fun f g => f.timestamp.toMicrosecond ≤ g.timestamp.toMicrosecond) ↔
        (deliverable (timeline 0 0 day es)).Pairwise fun a b => a.changed - b.changed ≤ (b.passed : Int) - a.passed) ∧
      ((∀ x, TEv.set x ∈ es → 0 ≤ x) → fs.Pairwise fun f g => f.timestamp.toMicrosecond ≤ g.timestamp.toMicrosecond) := by
  obtain ⟨fs, ts, h1, h2, h3, -, h5⟩ := C105_difference_partial o ho index name fd junk ops hv day es hp hr
  have hiff : (fs.Pairwise fun f g => f.timestamp.toMicrosecond ≤ g.timestamp.toMicrosecond) ↔
      ts.Pairwise fun a b => a.changed - b.changed ≤ (b.passed : Int) - a.passed := by
    rw [List.pairwise_iff_getElem, List.pairwise_iff_getElem]
    constructor
    · intro h i j hi hj hij
      have := h i j (by omega) (by omega) hij
      have := h5 i j (by omega) (by omega) hi hj
      omega
    · intro h i j hi hj hij
      have := h i j (by omega) (by omega) hij
      have := h5 i j hi hj (by omega) (by omega)
      omega
  refine ⟨fs, h1, h2 ▸ hiff, fun hx => hiff.2 ?_⟩
  rw [h2]
  unfold deliverable
  apply List.Pairwise.filter
  exact List.Pairwise.imp₂ (fun a b h1 h2 => by omega) (timeline_changed hx 0 0 day).2 (timeline_passed 0 0 day es).2

/-- A frame for the examples. -/
def exData : CanfdFrame := ⟨0x80000001#32, 0, 0, 0, 0, Vector.replicate 64 0⟩

/-- C105 is false of the code: a message, the time of day is set back by a second, another message. -/
theorem C105_full_statement_fails : ¬ C105_Statement := by
  intro h
  have hp : ∀ t ∈ timeline 0 0 5000000 [.msg true exData, .pass 10, .set (-1000000), .msg true exData], t.Plausible := by
    intro t ht
    rcases List.mem_cons.1 ht with rfl | ht
    · exact ⟨by decide, by decide⟩
    · rcases List.mem_cons.1 ht with rfl | ht
      · exact ⟨by decide, by decide⟩
      · cases ht
  have hv : ∀ op ∈ [KOp.arrive (Vector.replicate 4 Can.Frame.default)
      ((timeline 0 0 5000000 [.msg true exData, .pass 10, .set (-1000000), .msg true exData]).map Timed.arrival)], ValidKOp op := by
    intro op hop
    rw [List.mem_singleton.1 hop]
    exact ⟨by decide, by decide⟩
  obtain ⟨fs, h1, h2⟩ := h ⟨true, true⟩ rfl 0 "can0" 3 (Vector.replicate 4 (Vector.replicate 32 0)) _ hv 5000000 _ hp
    (by simp [Received, arrivals])
  obtain ⟨fs', h3, h4, -⟩ := C105_iff_partial ⟨true, true⟩ rfl 0 "can0" 3 (Vector.replicate 4 (Vector.replicate 32 0)) _ hv 5000000 _ hp
    (by simp [Received, arrivals])
  rw [h1] at h3
  cases h3
  have := h4.1 h2
  revert this
  decide

/-- A second message of the same second, ten microseconds later. -/
example : (deliverable (timeline 0 0 5000000 [.msg true exData, .pass 10, .msg true exData])).map (fun t => (t.passed, t.day)) =
    [(0, 5000000), (10, 5000010)] := by decide

end Uavcan.SocketCan
