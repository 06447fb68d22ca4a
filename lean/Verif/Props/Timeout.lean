import Verif.Spec.Timeout
import Verif.Props.WallClock
import Verif.Props.Deadline

/-!
# C140: time-outs between frames
-/

namespace Uavcan.SocketCan
open Spec Can Time

/-- The property as stated in `properties.jsonl`: of two frames received, the second is found to be late exactly if the time out has passed between their arrivals. -/
def C140_Statement : Prop :=
  ∀ (o : SockOpts), o.ts = true → ∀ (index : Nat) (name : String) (fd : Int) (junk : Vector (Vector Byte ControlSize) FramesLen)
    (ops : List KOp), (∀ op ∈ ops, ValidKOp op) → ∀ (day : Int) (es : List TEv), (∀ t ∈ timeline 0 0 day es, t.Plausible) →
    Received ops (timeline 0 0 day es) →
    ∃ fs, delivery o (CIface.mk' index name fd junk) ops = .ok fs ∧
      ∀ (i j : Nat) (f g : FrameT) (a b : Timed), i ≤ j → fs[i]? = some f → fs[j]? = some g → (deliverable (timeline 0 0 day es))[i]? = some a → (deliverable (timeline 0 0 day es))[j]? = some b →
        ∀ timeout : Int, 0 ≤ timeout → timeout < 2 ^ 63 → timedOut f g timeout = .ok (decide (timeout ≤ (b.passed : Int) - a.passed))

/-- C140, partial: exactly what the comparison says: whether the time out is at most the time that passed plus what the time of day was changed by. Missing: the latter should not matter. -/
theorem C140_exact_partial (o : SockOpts) (ho : o.ts = true) (index : Nat) (name : String) (fd : Int)
    (junk : Vector (Vector Byte ControlSize) FramesLen) (ops : List KOp) (hv : ∀ op ∈ ops, ValidKOp op) (day : Int)
    (es : List TEv) (hp : ∀ t ∈ timeline 0 0 day es, t.Plausible) (hr : Received ops (timeline 0 0 day es)) :
    ∃ fs, delivery o (CIface.mk' index name fd junk) ops = .ok fs ∧ fs.length = (deliverable (timeline 0 0 day es)).length ∧
      ∀ (i j : Nat) (f g : FrameT) (a b : Timed), fs[i]? = some f → fs[j]? = some g → (deliverable (timeline 0 0 day es))[i]? = some a → (deliverable (timeline 0 0 day es))[j]? = some b →
        ∀ timeout : Int, 0 ≤ timeout → timeout < 2 ^ 63 →
          timedOut f g timeout = .ok (decide (timeout ≤ ((b.passed : Int) - a.passed) + (b.changed - a.changed))) := by
  obtain ⟨fs, ts, h1, h2, h3, h4, h5⟩ := C105_difference_partial o ho index name fd junk ops hv day es hp hr
  subst h2
  refine ⟨fs, h1, h3, fun i j f g a b hf hg ha hb timeout ht0 ht1 => ?_⟩
  obtain ⟨hi, rfl⟩ := List.getElem?_eq_some_iff.1 hf
  obtain ⟨hj, rfl⟩ := List.getElem?_eq_some_iff.1 hg
  obtain ⟨hi', rfl⟩ := List.getElem?_eq_some_iff.1 ha
  obtain ⟨hj', rfl⟩ := List.getElem?_eq_some_iff.1 hb
  have pl : ∀ k (h : k < (deliverable (timeline 0 0 day es)).length), (deliverable (timeline 0 0 day es))[k].Plausible := fun k h => hp _ (List.mem_filter.1 (List.getElem_mem h)).1
  obtain ⟨p1, p2⟩ := pl i hi'
  obtain ⟨q1, q2⟩ := pl j hj'
  have e1 := (h4 i hi hi').2
  have e2 := (h4 j hj hj').2
  have e3 := h5 i j hi hj hi' hj'
  simp only [TimePoint.toMicrosecond] at e1 e2 e3
  rw [← e3]
  obtain ⟨x, hx, hge⟩ := C114_deadline_partial defaultWidth (by decide) fs[i].timestamp.usec fs[j].timestamp.usec timeout
    (by rw [e1]; simp only [IsUInt, defaultWidth]; omega) (by rw [e2]; simp only [IsUInt, defaultWidth]; omega) (by simp only [IsInt, defaultWidth]; omega)
  have hx : TimePoint.add defaultWidth fs[i].timestamp (Duration.fromMicrosecond timeout) = .ok x := hx
  unfold timedOut
  rw [hx]
  show Outcome.ok (fs[j].timestamp.ge x) = _
  congr 1
  rw [Bool.eq_iff_iff, decide_eq_true_iff]
  rw [if_pos ht0] at hge
  refine hge.trans ?_
  have : fs[j].timestamp.usec ≠ 2 ^ defaultWidth - 1 := by rw [e2]; simp only [defaultWidth]; omega
  constructor
  · rintro (h | h)
    · exact h
    · exact absurd h this
  · exact Or.inl

/-- C140, partial: for two frames the answer is right for every time out exactly if the time of day was not changed between them, in sum. -/
theorem C140_iff_partial (o : SockOpts) (ho : o.ts = true) (index : Nat) (name : String) (fd : Int)
    (junk : Vector (Vector Byte ControlSize) FramesLen) (ops : List KOp) (hv : ∀ op ∈ ops, ValidKOp op) (day : Int)
    (es : List TEv) (hp : ∀ t ∈ timeline 0 0 day es, t.Plausible) (hr : Received ops (timeline 0 0 day es)) :
    ∃ fs, delivery o (CIface.mk' index name fd junk) ops = .ok fs ∧
      ∀ (i j : Nat) (f g : FrameT) (a b : Timed), i ≤ j → fs[i]? = some f → fs[j]? = some g → (deliverable (timeline 0 0 day es))[i]? = some a → (deliverable (timeline 0 0 day es))[j]? = some b →
        ((∀ timeout : Int, 0 ≤ timeout → timeout < 2 ^ 63 → timedOut f g timeout = .ok (decide (timeout ≤ (b.passed : Int) - a.passed))) ↔ a.changed = b.changed) := by
  obtain ⟨fs, h1, -, h2⟩ := C140_exact_partial o ho index name fd junk ops hv day es hp hr
  refine ⟨fs, h1, fun i j f g a b hij hf hg ha hb => ?_⟩
  have key := h2 i j f g a b hf hg ha hb
  obtain ⟨hi', rfl⟩ := List.getElem?_eq_some_iff.1 ha
  obtain ⟨hj', rfl⟩ := List.getElem?_eq_some_iff.1 hb
  have pl : ∀ k (h : k < (deliverable (timeline 0 0 day es)).length), (deliverable (timeline 0 0 day es))[k] ∈ timeline 0 0 day es := fun k h => (List.mem_filter.1 (List.getElem_mem h)).1
  have d1 := timeline_day 0 0 day es _ (pl i hi')
  have d2 := timeline_day 0 0 day es _ (pl j hj')
  obtain ⟨p1, p2⟩ := hp _ (pl i hi')
  obtain ⟨q1, q2⟩ := hp _ (pl j hj')
  have mono : (deliverable (timeline 0 0 day es))[i].passed ≤ (deliverable (timeline 0 0 day es))[j].passed := by
    by_cases he : i = j
    · subst he; exact Nat.le_refl _
    · exact List.pairwise_iff_getElem.1 ((timeline_passed 0 0 day es).2.filter _) i j hi' hj' (by omega)
  constructor
  · intro h
    have test : ∀ t : Int, 0 ≤ t → t < 2 ^ 63 → (t ≤ ((deliverable (timeline 0 0 day es))[j].passed : Int) - (deliverable (timeline 0 0 day es))[i].passed ↔
        t ≤ (((deliverable (timeline 0 0 day es))[j].passed : Int) - (deliverable (timeline 0 0 day es))[i].passed) +
          ((deliverable (timeline 0 0 day es))[j].changed - (deliverable (timeline 0 0 day es))[i].changed)) := fun t h0 h3 => by
      have := (h t h0 h3).symm.trans (key t h0 h3)
      exact decide_eq_decide.1 (Outcome.ok.inj this)
    by_cases hp : ((deliverable (timeline 0 0 day es))[j].passed : Int) - (deliverable (timeline 0 0 day es))[i].passed < 2 ^ 62 + 2 ^ 61 + 2 ^ 60 + 2 ^ 59 + 2 ^ 58
    · have t1 := test (((deliverable (timeline 0 0 day es))[j].passed : Int) - (deliverable (timeline 0 0 day es))[i].passed) (by omega) (by omega)
      have t2 := test (((deliverable (timeline 0 0 day es))[j].passed : Int) - (deliverable (timeline 0 0 day es))[i].passed + 1) (by omega) (by omega)
      omega
    · have t3 := test (2 ^ 62 + 2 ^ 61 + 2 ^ 60 + 2 ^ 59 + 2 ^ 58) (by omega) (by omega)
      omega
  · intro h t h0 h3
    rw [key t h0 h3, h, Int.sub_self, Int.add_zero]

theorem timeline_unchanged {es : List TEv} (he : ∀ x, TEv.set x ∉ es) (p : Nat) (c d : Int) : ∀ t ∈ timeline p c d es, t.changed = c := by
  induction es generalizing p d with
  | nil => intro t h; cases h
  | cons e es ih =>
    have ih := ih (fun x hx => he x (List.mem_cons_of_mem _ hx))
    cases e with
    | pass us => exact ih _ _
    | set x => exact absurd (List.mem_cons_self ..) (he x)
    | msg a b =>
      intro t h
      rcases List.mem_cons.1 h with rfl | h
      · rfl
      · exact ih _ _ t h

/-- C140, partial: right for all frames and time outs if the time of day is never set. -/
theorem C140_no_change_partial (o : SockOpts) (ho : o.ts = true) (index : Nat) (name : String) (fd : Int)
    (junk : Vector (Vector Byte ControlSize) FramesLen) (ops : List KOp) (hv : ∀ op ∈ ops, ValidKOp op) (day : Int)
    (es : List TEv) (hp : ∀ t ∈ timeline 0 0 day es, t.Plausible) (hr : Received ops (timeline 0 0 day es)) (he : ∀ x, TEv.set x ∉ es) :
    ∃ fs, delivery o (CIface.mk' index name fd junk) ops = .ok fs ∧
      ∀ (i j : Nat) (f g : FrameT) (a b : Timed), i ≤ j → fs[i]? = some f → fs[j]? = some g → (deliverable (timeline 0 0 day es))[i]? = some a → (deliverable (timeline 0 0 day es))[j]? = some b →
        ∀ timeout : Int, 0 ≤ timeout → timeout < 2 ^ 63 → timedOut f g timeout = .ok (decide (timeout ≤ (b.passed : Int) - a.passed)) := by
  obtain ⟨fs, h1, h2⟩ := C140_iff_partial o ho index name fd junk ops hv day es hp hr
  refine ⟨fs, h1, fun i j f g a b hij hf hg ha hb => (h2 i j f g a b hij hf hg ha hb).2 ?_⟩
  have := fun x (hx : x ∈ deliverable (timeline 0 0 day es)) => timeline_unchanged he 0 0 day x (List.mem_filter.1 hx).1
  rw [this a (List.mem_of_getElem? ha), this b (List.mem_of_getElem? hb)]

/-- C140 is false of the code: a message, ten microseconds later another; in between the time of day is set forward by three seconds. With a time out of two seconds the second is late. -/
theorem C140_full_statement_fails : ¬ C140_Statement := by
  intro h
  have hp : ∀ t ∈ timeline 0 0 5000000 [.msg true exData, .pass 10, .set 3000000, .msg true exData], t.Plausible := by
    intro t ht
    rcases List.mem_cons.1 ht with rfl | ht
    · exact ⟨by decide, by decide⟩
    · rcases List.mem_cons.1 ht with rfl | ht
      · exact ⟨by decide, by decide⟩
      · cases ht
  have hv : ∀ op ∈ [KOp.arrive (Vector.replicate 4 Can.Frame.default)
      ((timeline 0 0 5000000 [.msg true exData, .pass 10, .set 3000000, .msg true exData]).map Timed.arrival)], ValidKOp op := by
    intro op hop
    rw [List.mem_singleton.1 hop]
    exact ⟨by decide, by decide⟩
  have hd : (deliverable (timeline 0 0 5000000 [.msg true exData, .pass 10, .set 3000000, .msg true exData])) =
      [⟨true, exData, 0, 0, 5000000⟩, ⟨true, exData, 10, 3000000, 8000010⟩] := rfl
  obtain ⟨fs, h1, h2⟩ := h ⟨true, true⟩ rfl 0 "can0" 3 (Vector.replicate 4 (Vector.replicate 32 0)) _ hv 5000000 _ hp (by simp [Received, arrivals])
  obtain ⟨fs', h3, hl, h4⟩ := C140_exact_partial ⟨true, true⟩ rfl 0 "can0" 3 (Vector.replicate 4 (Vector.replicate 32 0)) _ hv 5000000 _ hp (by simp [Received, arrivals])
  rw [h1] at h3
  cases h3
  rw [hd] at hl h2 h4
  obtain ⟨f, g, rfl⟩ : ∃ f g, fs = [f, g] := by
    match fs, hl with
    | [f, g], _ => exact ⟨f, g, rfl⟩
  have a := h2 0 1 f g _ _ (by decide) rfl rfl rfl rfl 2000000 (by decide) (by decide)
  have b := h4 0 1 f g _ _ rfl rfl rfl rfl 2000000 (by decide) (by decide)
  rw [a] at b
  exact absurd (Outcome.ok.inj b) (by decide)

/-- Two messages two seconds apart, the clock never set: the second is late for a time out of two seconds and not for one of a microsecond more. -/
example : ∃ f g, delivery ⟨true, true⟩ (CIface.mk' 0 "can0" 3 (Vector.replicate 4 (Vector.replicate 32 0)))
      [KOp.arrive (Vector.replicate 4 Can.Frame.default) ((timeline 0 0 5000000 [.msg true exData, .pass 2000000, .msg true exData]).map Timed.arrival)] = .ok [f, g] ∧
    timedOut f g 2000000 = .ok true ∧ timedOut f g 2000001 = .ok false := by
  have hp : ∀ t ∈ timeline 0 0 5000000 [.msg true exData, .pass 2000000, .msg true exData], t.Plausible := by
    intro t ht
    rcases List.mem_cons.1 ht with rfl | ht
    · exact ⟨by decide, by decide⟩
    · rcases List.mem_cons.1 ht with rfl | ht
      · exact ⟨by decide, by decide⟩
      · cases ht
  obtain ⟨fs, h3, hl, h4⟩ := C140_exact_partial ⟨true, true⟩ rfl 0 "can0" 3 (Vector.replicate 4 (Vector.replicate 32 0))
    [KOp.arrive (Vector.replicate 4 Can.Frame.default) ((timeline 0 0 5000000 [.msg true exData, .pass 2000000, .msg true exData]).map Timed.arrival)]
    (by intro op hop; rw [List.mem_singleton.1 hop]; exact ⟨by decide, by decide⟩) 5000000 _ hp (by simp [Received, arrivals])
  have hd : (deliverable (timeline 0 0 5000000 [.msg true exData, .pass 2000000, .msg true exData])) =
      [⟨true, exData, 0, 0, 5000000⟩, ⟨true, exData, 2000000, 0, 7000000⟩] := rfl
  rw [hd] at hl h4
  obtain ⟨f, g, rfl⟩ : ∃ f g, fs = [f, g] := by
    match fs, hl with
    | [f, g], _ => exact ⟨f, g, rfl⟩
  refine ⟨f, g, h3, ?_, ?_⟩
  · exact h4 0 1 f g _ _ rfl rfl rfl rfl 2000000 (by decide) (by decide)
  · exact h4 0 1 f g _ _ rfl rfl rfl rfl 2000001 (by decide) (by decide)

end Uavcan.SocketCan
