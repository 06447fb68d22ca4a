import Verif.Spec.TimeProgram
import Verif.Props.Time

/-!
# C116: programs over times and durations
-/

namespace Uavcan.Time
open Spec SatMath

/-- The property as stated in `properties.jsonl`, for a given reading of `std::abs`. -/
def C116_Statement (abs : Nat → Int → Outcome Int) (w : Nat) : Prop :=
  ∀ (cs : List TStmt) (o : Objs), Representable w o → (∀ c ∈ cs, LiteralsFit w c) → runProgram abs w o cs = .ok (idealRun w o cs)

/-- When a statement does what it should: the operands of the defects found in C01, C02, C04, C05 and C09 are avoided. -/
def Harmless (w : Nat) (o : Objs) : TStmt → Prop
  | .dur (.addAssign d s) => w < 32 ∨ o.dur d ≠ 0 ∨ 0 ≤ o.dur s
  | .dur (.subAssign d s) => w < 32 ∨ o.dur d ≠ 0 ∨ o.dur s < 0
  | .durAdd _ a b => w < 32 ∨ o.dur a ≠ 0 ∨ 0 ≤ o.dur b
  | .durSub _ a b => w < 32 ∨ o.dur a ≠ 0 ∨ o.dur b < 0
  | .durAbs _ a => o.dur a ≠ -(2 ^ (w - 1))
  | .timeAdd _ s d => 0 ≤ o.dur d ∨ o.dur d = -(2 ^ (w - 1)) ∨ o.time s + o.dur d ≤ 0
  | .timeSub _ s d => 0 ≤ o.dur d ∨ o.dur d = -(2 ^ (w - 1)) ∨ 2 ^ w - 1 ≤ o.time s - o.dur d
  | .timeAddAssign t d => 0 ≤ o.dur d ∨ o.dur d = -(2 ^ (w - 1)) ∨ o.time t + o.dur d ≤ 0
  | .timeSubAssign t d => 0 ≤ o.dur d ∨ o.dur d = -(2 ^ (w - 1)) ∨ 2 ^ w - 1 ≤ o.time t - o.dur d
  | _ => True

/-- Every statement of the program is harmless where it is executed. -/
def AllHarmless (w : Nat) (o : Objs) : List TStmt → Prop
  | [] => True
  | c :: cs => Harmless w o c ∧ AllHarmless w (ideal w o c) cs

theorem set_inj (s : Store) (i : Nat) (v v' : Int) : s.set i v = upd s i v' ↔ v = v' := by
  constructor
  · intro h; have := congrFun h i; simpa [Store.set, upd] using this
  · rintro rfl; rfl

theorem setDur_ideal (o : Objs) (i : Nat) (x : Outcome Duration) (v : Int) :
    (x >>= fun y => pure (o.setDur i y)) = .ok { o with dur := upd o.dur i v } ↔ x = .ok ⟨v⟩ := by
  cases x with
  | ub r => simp
  | ok y =>
    obtain ⟨u⟩ := y
    simp only [Outcome.ok_bind, Outcome.pure_eq, Outcome.ok.injEq, Objs.setDur, Objs.mk.injEq, and_true, set_inj, Duration.mk.injEq]

theorem setTime_ideal (o : Objs) (i : Nat) (x : Outcome TimePoint) (v : Int) :
    (x >>= fun y => pure (o.setTime i y)) = .ok { o with time := upd o.time i v } ↔ x = .ok ⟨v⟩ := by
  cases x with
  | ub r => simp
  | ok y =>
    obtain ⟨u⟩ := y
    simp only [Outcome.ok_bind, Outcome.pure_eq, Outcome.ok.injEq, Objs.setTime, Objs.mk.injEq, true_and, set_inj, TimePoint.mk.injEq]

theorem durAdd_iff (w : Nat) (hw : 2 ≤ w) (a b : Int) (ha : IsInt w a) (hb : IsInt w b) :
    Duration.add strictAbs w ⟨a⟩ ⟨b⟩ = .ok ⟨signedClamp w (a + b)⟩ ↔ (w < 32 ∨ a ≠ 0 ∨ 0 ≤ b) := by
  rw [← C01_signed_add_partial w hw a b ha hb]
  simp only [Duration.add]
  cases addS strictAbs w a b <;> simp [Duration.fromMicrosecond]

theorem durSub_iff (w : Nat) (hw : 2 ≤ w) (a b : Int) (ha : IsInt w a) (hb : IsInt w b) :
    Duration.sub strictAbs w ⟨a⟩ ⟨b⟩ = .ok ⟨signedClamp w (a - b)⟩ ↔ (w < 32 ∨ a ≠ 0 ∨ b < 0) := by
  rw [← C02_signed_sub_partial w hw a b ha hb]
  simp only [Duration.sub]
  cases subS strictAbs w a b <;> simp [Duration.fromMicrosecond]

theorem timeAdd_iff (w : Nat) (hw : 2 ≤ w) (a b : Int) (ha : IsUInt w a) (hb : IsInt w b) :
    TimePoint.add w ⟨a⟩ ⟨b⟩ = .ok ⟨unsignedClamp w (a + b)⟩ ↔ (0 ≤ b ∨ b = -(2 ^ (w - 1)) ∨ a + b ≤ 0) := by
  rw [← C04_mixed_add_partial w hw a b ha hb]
  simp only [TimePoint.add, Duration.toMicrosecond]
  cases addM w a b <;> simp [TimePoint.fromMicrosecond]

theorem timeSub_iff (w : Nat) (hw : 2 ≤ w) (a b : Int) (ha : IsUInt w a) (hb : IsInt w b) :
    TimePoint.sub w ⟨a⟩ ⟨b⟩ = .ok ⟨unsignedClamp w (a - b)⟩ ↔ (0 ≤ b ∨ b = -(2 ^ (w - 1)) ∨ 2 ^ w - 1 ≤ a - b) := by
  rw [← C05_mixed_sub_partial w hw a b ha hb]
  simp only [TimePoint.sub, Duration.toMicrosecond]
  cases subM w a b <;> simp [TimePoint.fromMicrosecond]

/-- C116, partial: exactly when one statement has the ideal effect on all objects, whatever objects it names, the same one twice
included. Missing: the operands of the defects of C01, C02, C04, C05 and C09. -/
theorem C116_step_partial (w : Nat) (hw : 2 ≤ w) (o : Objs) (ho : Representable w o) (c : TStmt) :
    c.exec strictAbs w o = .ok (ideal w o c) ↔ Harmless w o c := by
  obtain ⟨hd, ht⟩ := ho
  have hp := pow_pos' (w - 1)
  cases c with
  | dur c =>
    cases c with
    | copy d s => simp only [Harmless, iff_true]; rfl
    | moveAssign d s => simp only [Harmless, iff_true]; rfl
    | moveConstruct d s => simp only [Harmless, iff_true]; rfl
    | addAssign d s =>
      rw [Harmless, ← durAdd_iff w hw _ _ (hd d) (hd s), ← setDur_ideal o d]
      simp only [TStmt.exec, Stmt.exec, ideal, idealStmt]
      cases Duration.add strictAbs w ⟨o.dur d⟩ ⟨o.dur s⟩ <;> exact Iff.rfl
    | subAssign d s =>
      rw [Harmless, ← durSub_iff w hw _ _ (hd d) (hd s), ← setDur_ideal o d]
      simp only [TStmt.exec, Stmt.exec, ideal, idealStmt]
      cases Duration.sub strictAbs w ⟨o.dur d⟩ ⟨o.dur s⟩ <;> exact Iff.rfl
  | durMake d us => simp only [Harmless, iff_true]; rfl
  | durMax d => simp only [Harmless, iff_true]; rfl
  | durAdd d a b => rw [Harmless, ← durAdd_iff w hw _ _ (hd a) (hd b), ← setDur_ideal o d]; rfl
  | durSub d a b => rw [Harmless, ← durSub_iff w hw _ _ (hd a) (hd b), ← setDur_ideal o d]; rfl
  | durNeg d a =>
    simp only [Harmless, iff_true]
    refine (setDur_ideal o d _ _).2 ?_
    rw [(C08_negation w hw _ (hd a)).1]
    have := hd a
    simp only [IsInt] at this
    simp only [signedClamp, clamp, Outcome.ok.injEq, Duration.mk.injEq]
    split <;> omega
  | durAbs d a =>
    rw [Harmless, ← C09_getAbs_partial w hw _ (hd a) strictAbs (.inl rfl), ← setDur_ideal o d]
    have : ((o.dur a).natAbs : Int) = if o.dur a < 0 then - o.dur a else o.dur a := by split <;> omega
    simp only [TStmt.exec, ideal, this]
  | timeCopy t s => simp only [Harmless, iff_true]; rfl
  | timeMove t s => simp only [Harmless, iff_true]; rfl
  | timeMake t us => simp only [Harmless, iff_true]; rfl
  | timeMax t => simp only [Harmless, iff_true]; rfl
  | timeAdd t s d => rw [Harmless, ← timeAdd_iff w hw _ _ (ht s) (hd d), ← setTime_ideal o t]; rfl
  | timeSub t s d => rw [Harmless, ← timeSub_iff w hw _ _ (ht s) (hd d), ← setTime_ideal o t]; rfl
  | timeAddAssign t d => rw [Harmless, ← timeAdd_iff w hw _ _ (ht t) (hd d), ← setTime_ideal o t]; rfl
  | timeSubAssign t d => rw [Harmless, ← timeSub_iff w hw _ _ (ht t) (hd d), ← setTime_ideal o t]; rfl

theorem upd_rep {P : Int → Prop} {s : Nat → Int} (hs : ∀ i, P (s i)) {v : Int} (hv : P v) (d i : Nat) : P (upd s d v i) := by
  simp only [upd]; split
  · exact hv
  · exact hs i

theorem ideal_rep {w : Nat} {o : Objs} (ho : Representable w o) {c : TStmt} (hc : LiteralsFit w c) : Representable w (ideal w o c) := by
  obtain ⟨hd, ht⟩ := ho
  have hp := pow_pos' (w - 1)
  have hq := pow_pos' w
  have hs : ∀ x, IsInt w (signedClamp w x) := by intro x; simp only [IsInt, signedClamp, clamp]; omega
  have hu : ∀ x, IsUInt w (unsignedClamp w x) := by intro x; simp only [IsUInt, unsignedClamp, clamp]; omega
  have hz : IsInt w 0 := by simp only [IsInt]; omega
  have hz' : IsUInt w 0 := by simp only [IsUInt]; omega
  have hm : IsInt w (2 ^ (w - 1) - 1) := by simp only [IsInt]; omega
  have hm' : IsUInt w (2 ^ w - 1) := by simp only [IsUInt]; omega
  cases c with
  | dur c =>
    refine ⟨?_, ht⟩
    cases c with
    | copy d s => exact upd_rep hd (hd s) d
    | moveAssign d s => exact upd_rep (upd_rep hd (hd s) d) hz s
    | moveConstruct d s => exact upd_rep (upd_rep hd (hd s) d) hz s
    | addAssign d s => exact upd_rep hd (hs _) d
    | subAssign d s => exact upd_rep hd (hs _) d
  | durMake d us => exact ⟨upd_rep hd hc d, ht⟩
  | durMax d => exact ⟨upd_rep hd hm d, ht⟩
  | durAdd d a b => exact ⟨upd_rep hd (hs _) d, ht⟩
  | durSub d a b => exact ⟨upd_rep hd (hs _) d, ht⟩
  | durNeg d a => exact ⟨upd_rep hd (hs _) d, ht⟩
  | durAbs d a => exact ⟨upd_rep hd (hs _) d, ht⟩
  | timeCopy t s => exact ⟨hd, upd_rep ht (ht s) t⟩
  | timeMove t s => exact ⟨hd, upd_rep (upd_rep ht (ht s) t) hz' s⟩
  | timeMake t us => exact ⟨hd, upd_rep ht hc t⟩
  | timeMax t => exact ⟨hd, upd_rep ht hm' t⟩
  | timeAdd t s d => exact ⟨hd, upd_rep ht (hu _) t⟩
  | timeSub t s d => exact ⟨hd, upd_rep ht (hu _) t⟩
  | timeAddAssign t d => exact ⟨hd, upd_rep ht (hu _) t⟩
  | timeSubAssign t d => exact ⟨hd, upd_rep ht (hu _) t⟩

/-- C116, partial: a program, of any length, brings all objects through exactly the ideal states if and only if each of its statements is
harmless where it is executed; it then ends in the ideal state. Missing: programs with other statements. -/
theorem C116_program_partial (w : Nat) (hw : 2 ≤ w) (cs : List TStmt) (o : Objs) (ho : Representable w o)
    (hc : ∀ c ∈ cs, LiteralsFit w c) :
    (trace strictAbs w o cs = (idealTrace w o cs).map .ok ↔ AllHarmless w o cs) ∧
    (AllHarmless w o cs → runProgram strictAbs w o cs = .ok (idealRun w o cs)) := by
  induction cs generalizing o with
  | nil => exact ⟨by simp [trace, idealTrace, AllHarmless], fun _ => rfl⟩
  | cons c cs ih =>
    have hs := C116_step_partial w hw o ho c
    have ih := ih (ideal w o c) (ideal_rep ho (hc c (by simp))) (fun x hx => hc x (by simp [hx]))
    constructor
    · rw [AllHarmless, ← ih.1, ← hs]
      simp only [trace, idealTrace, List.map_cons]
      cases c.exec strictAbs w o with
      | ub r => simp
      | ok o' =>
        simp only [List.cons.injEq, Outcome.ok.injEq]
        constructor
        · rintro ⟨rfl, h⟩; exact ⟨rfl, h⟩
        · rintro ⟨rfl, h⟩; exact ⟨rfl, h⟩
    · rintro ⟨h1, h2⟩
      rw [runProgram, hs.2 h1, Outcome.ok_bind, ih.2 h2, idealRun]

/-- Statements that make no negative durations: none is subtracted from another or negated, and none is negative from the start. -/
def Forward : TStmt → Prop
  | .dur (.subAssign _ _) | .durSub _ _ _ | .durNeg _ _ => False
  | .durMake _ us => 0 ≤ us
  | _ => True

/-- C116, partial: a program that makes no negative durations is right, whatever it does with times: this is what applications can rely
on without looking at values. Missing: programs that subtract or negate durations. -/
theorem C116_forward_partial (w : Nat) (hw : 2 ≤ w) (cs : List TStmt) (o : Objs) (ho : Representable w o)
    (hn : ∀ i, 0 ≤ o.dur i) (hc : ∀ c ∈ cs, LiteralsFit w c ∧ Forward c) :
    trace strictAbs w o cs = (idealTrace w o cs).map .ok ∧ runProgram strictAbs w o cs = .ok (idealRun w o cs) := by
  have key : AllHarmless w o cs := by
    induction cs generalizing o with
    | nil => trivial
    | cons c cs ih =>
      have hcc := hc c (by simp)
      have hp := pow_pos' (w - 1)
      have hsc : ∀ x, 0 ≤ x → 0 ≤ signedClamp w x := by intro x hx; simp only [signedClamp, clamp]; omega
      refine ⟨?_, ih _ (ideal_rep ho hcc.1) ?_ (fun x hx => hc x (by simp [hx]))⟩
      · cases c with
        | dur c => cases c with
          | addAssign d s => exact .inr (.inr (hn s))
          | subAssign d s => exact hcc.2.elim
          | _ => trivial
        | durAdd d a b => exact .inr (.inr (hn b))
        | durSub d a b => exact hcc.2.elim
        | durAbs d a => have := hn a; simp only [Harmless]; omega
        | timeAdd t s d => exact .inl (hn d)
        | timeSub t s d => exact .inl (hn d)
        | timeAddAssign t d => exact .inl (hn d)
        | timeSubAssign t d => exact .inl (hn d)
        | _ => trivial
      · cases c with
        | dur c => cases c with
          | copy d s => exact upd_rep hn (hn s) d
          | moveAssign d s => exact upd_rep (upd_rep hn (hn s) d) (Int.le_refl 0) s
          | moveConstruct d s => exact upd_rep (upd_rep hn (hn s) d) (Int.le_refl 0) s
          | addAssign d s => exact upd_rep hn (hsc _ (Int.add_nonneg (hn d) (hn s))) d
          | subAssign d s => exact hcc.2.elim
        | durMake d us => exact upd_rep hn hcc.2 d
        | durMax d => exact upd_rep (P := (0 ≤ ·)) hn (by omega) d
        | durAdd d a b => exact upd_rep hn (hsc _ (Int.add_nonneg (hn a) (hn b))) d
        | durSub d a b => exact hcc.2.elim
        | durNeg d a => exact hcc.2.elim
        | durAbs d a => exact upd_rep hn (hsc _ (Int.natCast_nonneg _)) d
        | _ => exact hn
  have := C116_program_partial w hw cs o ho (fun c hx => (hc c hx).1)
  exact ⟨this.1.2 key, this.2 key⟩

/-- C116: whatever a program does, right or wrong and under every reading of `std::abs` as a function to the signed type, no object ever
holds a number that is not of its type. -/
theorem C116_in_range (abs : Nat → Int → Outcome Int) (w : Nat) (hw : 2 ≤ w) (cs : List TStmt) (o o' : Objs) (ho : Representable w o)
    (hc : ∀ c ∈ cs, LiteralsFit w c) (h : runProgram abs w o cs = .ok o') : Representable w o' := by
  induction cs generalizing o with
  | nil => cases h; exact ho
  | cons c cs ih =>
    simp only [runProgram, Outcome.bind_eq_ok] at h
    obtain ⟨o1, h1, h2⟩ := h
    refine ih o1 ?_ (fun x hx => hc x (by simp [hx])) h2
    have hcc := hc c (by simp)
    have hid := ideal_rep ho hcc
    obtain ⟨hd, ht⟩ := ho
    have hq := pow_pos' w
    have hcast : ∀ x, IsInt w (castS w x) := fun x => castS_inS (by omega) x
    have hadd : ∀ a b (x : TimePoint), IsUInt w a → TimePoint.add w ⟨a⟩ ⟨b⟩ = .ok x → IsUInt w x.usec := by
      intro a b x ha hx
      simp only [TimePoint.add, Duration.toMicrosecond, addM_conv (w := w) (l := a) ha] at hx
      cases hx
      simp only [TimePoint.fromMicrosecond]
      have := convU_inU w b
      simp only [InU, uintMax, IsUInt, unsignedClamp, clamp] at *
      split <;> omega
    have hsub : ∀ a b (x : TimePoint), IsUInt w a → TimePoint.sub w ⟨a⟩ ⟨b⟩ = .ok x → IsUInt w x.usec := by
      intro a b x ha hx
      simp only [TimePoint.sub, Duration.toMicrosecond, subM_conv (w := w) (l := a) ha] at hx
      cases hx
      simp only [TimePoint.fromMicrosecond]
      have := convU_inU w b
      simp only [InU, uintMax, IsUInt, unsignedClamp, clamp] at *
      split <;> omega
    cases c with
    | dur c =>
      simp only [TStmt.exec, Outcome.bind_eq_ok, Outcome.pure_eq, Outcome.ok.injEq] at h1
      obtain ⟨d, h1, rfl⟩ := h1
      exact ⟨C12_history_in_range abs w hw [c] o.dur d hd (by simp only [Time.exec, h1, Outcome.ok_bind]), ht⟩
    | durAdd d a b =>
      simp only [TStmt.exec, Outcome.bind_eq_ok, Outcome.pure_eq, Outcome.ok.injEq] at h1
      obtain ⟨v, h1, rfl⟩ := h1
      simp only [Duration.add] at h1
      cases hx : addS abs w (o.dur a) (o.dur b) with
      | ub r => rw [hx] at h1; cases h1
      | ok x => rw [hx] at h1; cases h1; exact ⟨upd_rep hd (addS_inS hw hx) d, ht⟩
    | durSub d a b =>
      simp only [TStmt.exec, Outcome.bind_eq_ok, Outcome.pure_eq, Outcome.ok.injEq] at h1
      obtain ⟨v, h1, rfl⟩ := h1
      simp only [Duration.sub] at h1
      cases hx : subS abs w (o.dur a) (o.dur b) with
      | ub r => rw [hx] at h1; cases h1
      | ok x => rw [hx] at h1; cases h1; exact ⟨upd_rep hd (subS_inS hw hx) d, ht⟩
    | durNeg d a =>
      simp only [TStmt.exec, (C08_negation w hw _ (hd a)).1, Outcome.ok_bind, Outcome.pure_eq, Outcome.ok.injEq] at h1
      subst h1
      refine ⟨upd_rep hd ?_ d, ht⟩
      have := hd a
      simp only [IsInt] at *
      split <;> omega
    | durAbs d a =>
      simp only [TStmt.exec, Duration.getAbs, Outcome.bind_eq_ok, Outcome.pure_eq, Outcome.ok.injEq] at h1
      obtain ⟨v, ⟨u, -, rfl⟩, rfl⟩ := h1
      exact ⟨upd_rep hd (hcast u) d, ht⟩
    | timeAdd t s d =>
      simp only [TStmt.exec, Outcome.bind_eq_ok, Outcome.pure_eq, Outcome.ok.injEq] at h1
      obtain ⟨v, h1, rfl⟩ := h1
      exact ⟨hd, upd_rep ht (hadd _ _ _ (ht s) h1) t⟩
    | timeSub t s d =>
      simp only [TStmt.exec, Outcome.bind_eq_ok, Outcome.pure_eq, Outcome.ok.injEq] at h1
      obtain ⟨v, h1, rfl⟩ := h1
      exact ⟨hd, upd_rep ht (hsub _ _ _ (ht s) h1) t⟩
    | timeAddAssign t d =>
      simp only [TStmt.exec, Outcome.bind_eq_ok, Outcome.pure_eq, Outcome.ok.injEq] at h1
      obtain ⟨v, h1, rfl⟩ := h1
      exact ⟨hd, upd_rep ht (hadd _ _ _ (ht t) h1) t⟩
    | timeSubAssign t d =>
      simp only [TStmt.exec, Outcome.bind_eq_ok, Outcome.pure_eq, Outcome.ok.injEq] at h1
      obtain ⟨v, h1, rfl⟩ := h1
      exact ⟨hd, upd_rep ht (hsub _ _ _ (ht t) h1) t⟩
    | durMake d us => cases h1; exact hid
    | durMax d => cases h1; exact hid
    | timeCopy t s => cases h1; exact hid
    | timeMove t s => cases h1; exact hid
    | timeMake t us => cases h1; exact hid
    | timeMax t => cases h1; exact hid

/-- All objects are 0. -/
def zeros : Objs := ⟨fun _ => 0, fun _ => 0⟩

/-- C116 is false of the code: 3 µs before the time 5 µs is 0 instead of 2, and the time that is left until now (0 µs minus 0 µs) is
undefined - or, on common hardware, the smallest duration there is. -/
theorem C116_full_statement_fails : ¬ C116_Statement strictAbs 64 ∧ ¬ C116_Statement wrapAbs 64 ∧
    (runProgram strictAbs 64 zeros [.timeMake 0 5, .durMake 0 3, .durNeg 0 0, .timeAddAssign 0 0]).bind (fun o => .ok (o.time 0)) = .ok 0 ∧
    (runProgram wrapAbs 64 zeros [.durSub 2 0 1]).bind (fun o => .ok (o.dur 2)) = .ok (-(2 ^ 63)) := by
  have hz : Representable 64 zeros := ⟨fun _ => (by decide : IsInt 64 0), fun _ => (by decide : IsUInt 64 0)⟩
  refine ⟨fun h => ?_, fun h => ?_, rfl, rfl⟩ <;>
  · have h := h [.durSub 2 0 1] zeros hz (by intro c hc; simp at hc; subst hc; trivial)
    have h := congrArg (fun x => Outcome.bind x fun o => .ok (o.dur 2)) h
    revert h
    decide +kernel

/-- A timer that is started, prolonged twice, asked for the time one period earlier and moved into another object. -/
example : (runProgram strictAbs 64 zeros
      [.timeMake 0 100, .durMake 0 7, .dur (.copy 1 0), .dur (.addAssign 1 1), .timeAdd 1 0 1, .timeAddAssign 1 0, .timeSub 2 1 0,
        .timeMove 3 1]).bind (fun o => .ok (o.dur 0, o.dur 1, o.time 0, o.time 1, o.time 2, o.time 3))
    = .ok (7, 14, 100, 0, 114, 121) := by decide

example : Representable 64 zeros ∧ (∀ i, 0 ≤ zeros.dur i) ∧ LiteralsFit 64 (.durMake 0 7) ∧ Forward (.durMake 0 7) ∧
    Harmless 64 zeros (.timeAdd 1 0 1) ∧ ¬ Harmless 64 zeros (.durSub 2 0 1) :=
  ⟨⟨fun _ => (by decide : IsInt 64 0), fun _ => (by decide : IsUInt 64 0)⟩, fun _ => Int.le_refl 0, (by decide : IsInt 64 7),
    (by decide : (0 : Int) ≤ 7), .inl (Int.le_refl 0), fun h => by rcases h with h | h | h <;> revert h <;> decide⟩

/-- C116: the objects seen on the way are those after each statement, up to the end or the first undefined statement; the program ends
with the last of them. -/
theorem C116_stops (abs : Nat → Int → Outcome Int) (w : Nat) (p : List TStmt) (o : Objs) :
    ∃ os : List Objs,
      (trace abs w o p = os.map .ok ∧ os.length = p.length ∧ runProgram abs w o p = .ok ((o :: os).getLast (by simp))) ∨
      (os.length < p.length ∧ ∃ r, trace abs w o p = os.map .ok ++ [.ub r] ∧ runProgram abs w o p = .ub r) := by
  induction p generalizing o with
  | nil => exact ⟨[], .inl ⟨rfl, rfl, rfl⟩⟩
  | cons c cs ih =>
    cases hc : c.exec abs w o with
    | ub r =>
      refine ⟨[], .inr ⟨by simp, r, by simp [trace, hc], ?_⟩⟩
      rw [runProgram, hc]; rfl
    | ok o' =>
      obtain ⟨os, h⟩ := ih o'
      have hr : runProgram abs w o (c :: cs) = runProgram abs w o' cs := by rw [runProgram, hc]; rfl
      refine ⟨o' :: os, ?_⟩
      rw [hr]
      rcases h with ⟨h1, h2, h3⟩ | ⟨h1, r, h2, h3⟩
      · exact .inl ⟨by simp [trace, hc, h1], by simp [h2], by rw [h3, List.getLast_cons_cons]⟩
      · exact .inr ⟨by simp; omega, r, by simp [trace, hc, h2], h3⟩

end Uavcan.Time
