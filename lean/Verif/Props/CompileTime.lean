import Verif.Lemmas.CompileTime
import Verif.Props.SatMath

/-!
# Properties of what the compiler accepts

The specification is the documentation of the template parameters: a duration is a class without
storage of its own over a signed integer (time.hpp:48–54), a time is a class without storage of its own
over an unsigned integer, with a duration of the same size (time.hpp:229–234, 254–255).
-/

namespace Uavcan.CompileTime
open Uavcan.Spec

/-! ## Specification -/

/-- What time.hpp:51–54 asks of a duration. -/
def ValidDuration (d : DurationClass) : Prop := d.usec.kind = .signedInt ∧ d.members = []

/-- What time.hpp:229–234 and 250–255 ask of a time. -/
def ValidTime (t : TimeClass) : Prop :=
  t.usec.kind = .unsignedInt ∧ t.members = [] ∧
    ∃ m, t.dtype = ⟨some m, some m⟩ ∧ m.kind = .signedInt ∧ m.size = t.usec.size

/-- Types and members as the language has them. -/
def Layable (usec : Ty) (ms : List DataMember) : Prop :=
  usec.Ok ∧ ∀ m ∈ ms, 0 < m.size ∧ 0 < m.align

/-- Every variable a statement uses is declared by an earlier statement. -/
def Scoped {σ : Type} (defines : σ → Option Nat) (uses : σ → List Nat) (p : List σ) : Prop :=
  ∀ i (hi : i < p.length), ∀ x ∈ uses p[i], ∃ j, ∃ hj : j < i, defines (p[j]'(by omega)) = some x

/-- A statement that adds or subtracts durations. -/
def DurStmt.Arithmetic : DurStmt → Prop
  | .plus _ _ _ => True
  | .plusAssign _ _ => True
  | _ => False

/-- A statement that adds a duration to a time or subtracts one. -/
def TimeStmt.Arithmetic : TimeStmt → Prop
  | .plus _ _ => True
  | .plusAssign _ => True
  | _ => False

private theorem scoped_iff {σ : Type} (defines : σ → Option Nat) (uses : σ → List Nat) (p : List σ) :
    inScope [] (p.map fun s => (defines s, uses s)) = true ↔ Scoped defines uses p := by
  rw [inScope_iff]
  simp only [List.length_map, List.getElem_map, List.not_mem_nil, false_or, Scoped]

/-! ## C90 -/

/-- C90. The size assertion rejects exactly the classes that add storage. -/
theorem C90_layout_partial (usec : Ty) (ms : List DataMember) (h : Layable usec ms) :
    sizeofDerived usec ms = usec.size ↔ ms = [] := by
  obtain ⟨⟨ha, hd, _⟩, hms⟩ := h
  constructor
  · intro hs
    cases ms with
    | nil => rfl
    | cons m ms =>
      have h1 := hms m List.mem_cons_self
      have h2 := le_roundUp usec.size h1.2
      have h3 := le_place ms (fun x hx => (hms x (List.mem_cons_of_mem _ hx)).2)
        (roundUp usec.size m.align + m.size)
      have h4 := le_roundUp (place usec.size (m :: ms)) (maxAlign_pos (m :: ms) ha)
      simp only [sizeofDerived, place] at hs h4
      omega
  · rintro rfl
    exact roundUp_of_dvd ha hd

example : Layable int64 [oneByte] ∧ sizeofDerived int64 [oneByte] = 16 := by
  refine ⟨⟨⟨by decide, by decide, by decide⟩, ?_⟩, by decide⟩
  intro m hm; simp only [List.mem_singleton] at hm; subst hm; decide

private theorem kinds_of_signed {t : Ty} : isSigned t = true ↔ t.kind = .signedInt ∨ t.kind = .floating := by
  cases h : t.kind <;> simp [isSigned, h]

private theorem sat_self {t : Ty} (hs : isSigned t = true) : saturatingOk t t = true ↔ t.kind = .signedInt := by
  cases h : t.kind <;>
    simp_all [isSigned, saturatingOk, overloadSigned, overloadUnsigned, overloadMixed, isIntegral]

private theorem durDefault_iff {d : DurationClass} (h : Layable d.usec d.members) :
    durDefault theLibrary d = true ↔
      (d.usec.kind = .signedInt ∨ d.usec.kind = .floating) ∧ d.members = [] := by
  simp only [durDefault, theLibrary, assertion, Bool.not_true, Bool.false_or, Bool.and_eq_true,
    DurationClass.size, beq_iff_eq, C90_layout_partial _ _ h, kinds_of_signed]
  constructor
  · rintro ⟨⟨_, h1⟩, h2⟩; exact ⟨h2, h1⟩
  · rintro ⟨h1, h2⟩
    refine ⟨⟨?_, h2⟩, h1⟩
    rcases h1 with h1 | h1 <;> simp [zeroOk, h1]

/-- The variables written in a statement, from left to right. -/
def DurStmt.names : DurStmt → List Nat
  | .declare v | .fromMicrosecond v | .getMaximum v => [v]
  | .copy a b | .move a b | .assign a b | .moveAssign a b | .read a b | .abs a b | .neg a b | .plusAssign a b => [a, b]
  | .plus a b c => [a, b, c]

/-- The same for times. -/
def TimeStmt.names : TimeStmt → List Nat
  | .declare v | .fromMicrosecond v | .getMaximum v | .plusAssign v => [v]
  | .copy a b | .move a b | .assign a b | .moveAssign a b | .read a b | .plus a b => [a, b]

/-- C90. What `Scoped` speaks of: every variable in a statement is the one it declares or one it uses, and no other is. -/
theorem C90_names_partial :
    (∀ s : DurStmt, s.names = s.defines.toList ++ s.uses) ∧ (∀ s : TimeStmt, s.names = s.defines.toList ++ s.uses) :=
  ⟨fun s => by cases s <;> rfl, fun s => by cases s <;> rfl⟩

/-- C90 (partial), durations, exactly: a program compiles iff its names are declared, and, if it does
anything at all, the class has no storage of its own over a signed integer or floating-point type, and,
if it adds or subtracts, over a signed integer type.
Missing from the full statement: floating-point types in programs that neither add nor subtract. -/
theorem C90_duration_partial (intSize : Nat) (d : DurationClass) (h : Layable d.usec d.members)
    (p : List DurStmt) :
    durCompiles theLibrary intSize d p = true ↔
      Scoped DurStmt.defines DurStmt.uses p ∧
      (p ≠ [] → (d.usec.kind = .signedInt ∨ d.usec.kind = .floating) ∧ d.members = []) ∧
      ((∃ s ∈ p, s.Arithmetic) → d.usec.kind = .signedInt) := by
  have hdef := durDefault_iff h
  simp only [durCompiles, Bool.and_eq_true, List.all_eq_true]
  constructor
  · rintro ⟨hs, hc⟩
    refine ⟨(scoped_iff ..).mp hs, ?_, ?_⟩
    · intro hp
      obtain ⟨s, rest, rfl⟩ := List.exists_cons_of_ne_nil hp
      have hu := inScope_head hs
      have hc := hc s List.mem_cons_self
      rw [← hdef]
      cases s <;> simp_all [DurStmt.uses, DurStmt.checks, durMaximum, durFrom]
    · rintro ⟨s, hmem, ha⟩
      have hc := hc s hmem
      cases s <;> simp only [DurStmt.Arithmetic] at ha
      · simp only [DurStmt.checks, durPlus, durFrom, Bool.and_eq_true] at hc
        have := hdef.mp hc.1.2
        exact (sat_self (kinds_of_signed.mpr this.1)).mp hc.1.1
      · simp only [DurStmt.checks, durPlusAssign, durPlus, durFrom, Bool.and_eq_true] at hc
        have := hdef.mp hc.1.2
        exact (sat_self (kinds_of_signed.mpr this.1)).mp hc.1.1
  · rintro ⟨hs, hne, har⟩
    refine ⟨(scoped_iff ..).mpr hs, ?_⟩
    intro s hmem
    have hv := hne (List.ne_nil_of_mem hmem)
    have hd := hdef.mpr hv
    have hm : durMove d = true := by
      rcases hv.1 with h1 | h1 <;> simp [durMove, zeroOk, h1]
    have habs : absOk intSize d.usec = true := by
      rcases hv.1 with h1 | h1 <;> simp [absOk, h1]
    have hneg : negOk d.usec = true := by
      rcases hv.1 with h1 | h1 <;> simp [negOk, h1]
    have hp : s.Arithmetic → saturatingOk d.usec d.usec = true := fun hs =>
      (sat_self (kinds_of_signed.mpr hv.1)).mpr (har ⟨s, hmem, hs⟩)
    cases s <;>
      simp_all [DurStmt.checks, DurStmt.Arithmetic, durFrom, durMaximum, durCopy, durAbs, durPlus, durNeg,
        durPlusAssign]

/-- C90. Every program over a valid duration whose names are declared compiles, and no other class will
do for a program that adds or subtracts. -/
theorem C90_duration_arithmetic_partial (intSize : Nat) (d : DurationClass)
    (h : Layable d.usec d.members) (p : List DurStmt) (ha : ∃ s ∈ p, s.Arithmetic) :
    durCompiles theLibrary intSize d p = true ↔
      Scoped DurStmt.defines DurStmt.uses p ∧ ValidDuration d := by
  rw [C90_duration_partial intSize d h]
  obtain ⟨s, hs, ha'⟩ := ha
  have hne : p ≠ [] := List.ne_nil_of_mem hs
  constructor
  · rintro ⟨h1, h2, h3⟩; exact ⟨h1, h3 ⟨s, hs, ha'⟩, (h2 hne).2⟩
  · rintro ⟨h1, h2, h3⟩; exact ⟨h1, fun _ => ⟨Or.inl h2, h3⟩, fun _ => h2⟩

/-- A program that declares durations, takes maxima, absolute values and copies, and subtracts. -/
def durationProgram : List DurStmt :=
  [.declare 0, .getMaximum 1, .copy 2 1, .plus 3 2 0, .abs 4 3, .plusAssign 4 1, .read 4 0]

example : durCompiles theLibrary 4 durationMonotonic durationProgram = true
    ∧ durCompiles theLibrary 4 ⟨uint64, []⟩ durationProgram = false
    ∧ durCompiles theLibrary 4 ⟨int64, [oneByte]⟩ durationProgram = false
    ∧ (∃ s ∈ durationProgram, s.Arithmetic) :=
  ⟨by decide, by decide, by decide, .plus 3 2 0, by decide, trivial⟩

/-- C90. What the assertion that the type is signed (time.hpp 72) is there for: without it, absolute values of unsigned durations would compile exactly for types narrower than `int`, where they
promote; the opposite of a duration over a class, or over a pointer, would not. -/
theorem C90_unsigned_abs_partial (intSize : Nat) (u : Ty) (h : Layable u []) :
    (u.kind = .unsignedInt → (durCompiles (theLibrary.without .durSigned) intSize ⟨u, []⟩ [.declare 0, .abs 1 0] = true ↔ u.size < intSize)) ∧
    (u.kind = .cls true ∨ u.kind = .pointer → durCompiles (theLibrary.without .durSigned) intSize ⟨u, []⟩ [.declare 0] = true ∧
      durCompiles (theLibrary.without .durSigned) intSize ⟨u, []⟩ [.declare 0, .neg 1 0] = false) := by
  have hz : sizeofDerived u [] = u.size := (C90_layout_partial _ _ h).2 rfl
  have hd : zeroOk u = true → durDefault (theLibrary.without .durSigned) ⟨u, []⟩ = true := by
    intro h0
    simp [durDefault, h0, assertion, Library.without, DurationClass.size, hz]
  constructor
  · intro hk
    have h0 : zeroOk u = true := by simp [zeroOk, hk]
    have hi : inScope [] [((DurStmt.declare 0).defines, (DurStmt.declare 0).uses), ((DurStmt.abs 1 0).defines, (DurStmt.abs 1 0).uses)] = true := by decide
    simp [durCompiles, hi, DurStmt.checks, durAbs, durFrom, durMove, hd h0, h0, absOk, hk]
  · intro hk
    have h0 : zeroOk u = true := by rcases hk with hk | hk <;> simp [zeroOk, hk]
    have hi : inScope [] [((DurStmt.declare 0).defines, (DurStmt.declare 0).uses)] = true := by decide
    have hn : negOk u = false := by rcases hk with hk | hk <;> simp [negOk, hk]
    constructor
    · simp [durCompiles, hi, DurStmt.checks, hd h0]
    · simp [durCompiles, DurStmt.checks, durNeg, hn]

example : durCompiles (theLibrary.without .durSigned) 4 ⟨uint64, []⟩ [.declare 0, .abs 1 0] = false := by decide

private theorem timeDefault_iff {t : TimeClass} (h : Layable t.usec t.members) :
    timeDefault theLibrary t = true ↔
      (t.usec.kind = .unsignedInt ∨ t.usec.kind = .boolean ∨ t.usec.kind = .pointer ∨
        t.usec.kind = .cls true) ∧ t.members = [] ∧
      ∃ m, t.dtype.microsecondType = some m ∧ m.size = t.usec.size := by
  simp only [timeDefault, theLibrary, assertion, Bool.not_true, Bool.false_or, Bool.and_eq_true,
    TimeClass.size, beq_iff_eq, C90_layout_partial _ _ h]
  have h1 : sameSizeAsDuration t = true ↔
      ∃ m, t.dtype.microsecondType = some m ∧ m.size = t.usec.size := by
    unfold sameSizeAsDuration
    split <;> rename_i hm <;> simp only [hm, beq_iff_eq, Option.some.injEq, exists_eq_left', reduceCtorEq,
      false_and, exists_false, Bool.false_eq_true]
    exact eq_comm
  have h2 : (zeroOk t.usec = true ∧ (!isSigned t.usec) = true) ↔
      (t.usec.kind = .unsignedInt ∨ t.usec.kind = .boolean ∨ t.usec.kind = .pointer ∨
        t.usec.kind = .cls true) := by
    cases hk : t.usec.kind <;> simp [zeroOk, isSigned, hk]
  rw [h1, ← h2]
  constructor
  · rintro ⟨⟨⟨a, b⟩, c⟩, d⟩; exact ⟨⟨a, c⟩, b, d⟩
  · rintro ⟨⟨a, c⟩, b, d⟩; exact ⟨⟨⟨a, b⟩, c⟩, d⟩

/-- What `r.toMicrosecond()` must be for a time to be added to: a signed integer of any size, or the very
type of the time. -/
def OperandOk (t : TimeClass) : Prop :=
  (t.usec.kind = .unsignedInt ∨ t.usec.kind = .boolean) ∧
    ∃ m, t.dtype.toMicrosecond = some m ∧ (m.kind = .signedInt ∨ m = t.usec)

private theorem operand_iff {t : TimeClass} (hs : isSigned t.usec = false) :
    durationOperandOk t = true ↔ OperandOk t := by
  unfold durationOperandOk OperandOk
  split <;> rename_i hm
  · rename_i m
    simp only [hm, Option.some.injEq, exists_eq_left']
    have key : saturatingOk t.usec m = true ↔
        isIntegral t.usec = true ∧ (m.kind = .signedInt ∨ m = t.usec) := by
      simp only [saturatingOk, overloadSigned, overloadUnsigned, overloadMixed, hs, Bool.and_false,
        Bool.not_false, Bool.and_true]
      by_cases he : t.usec = m
      · subst he
        simp only [BEq.rfl, Bool.true_and, hs, Bool.and_false, or_true, and_true]
        cases isIntegral t.usec <;> decide
      · have hb : (t.usec == m) = false := by simpa using he
        have he' : ¬ m = t.usec := fun h => he h.symm
        simp only [hb, Bool.false_and, he', or_false]
        cases hk : m.kind <;> cases isIntegral t.usec <;> simp [isIntegral, isSigned, hk]
    rw [key]
    have : isIntegral t.usec = true ↔ (t.usec.kind = .unsignedInt ∨ t.usec.kind = .boolean) := by
      cases hk : t.usec.kind <;> simp_all [isIntegral, isSigned]
    rw [this]
  · simp [hm]

/-- C90 (partial), times, exactly: a program compiles iff its names are declared, and, if it does
anything at all, the class has no storage of its own over an unsigned integer, `bool`, a pointer or a
class made from 0, and the duration's `MicrosecondType` has its size, and, if it adds or subtracts, the
operand of the duration is a signed integer or of the very type of the time.
Missing from the full statement: the types beside unsigned integers, and a "duration" that is itself
unsigned or whose `toMicrosecond()` returns another type than `MicrosecondType`. -/
theorem C90_time_partial (t : TimeClass) (h : Layable t.usec t.members) (p : List TimeStmt) :
    timeCompiles theLibrary t p = true ↔
      Scoped TimeStmt.defines TimeStmt.uses p ∧
      (p ≠ [] →
        (t.usec.kind = .unsignedInt ∨ t.usec.kind = .boolean ∨ t.usec.kind = .pointer ∨
          t.usec.kind = .cls true) ∧ t.members = [] ∧
        ∃ m, t.dtype.microsecondType = some m ∧ m.size = t.usec.size) ∧
      ((∃ s ∈ p, s.Arithmetic) → OperandOk t) := by
  have hdef := timeDefault_iff h
  have hun : timeDefault theLibrary t = true → isSigned t.usec = false := by
    intro hd
    rcases (hdef.mp hd).1 with h1 | h1 | h1 | h1 <;> simp [isSigned, h1]
  simp only [timeCompiles, Bool.and_eq_true, List.all_eq_true]
  constructor
  · rintro ⟨hs, hc⟩
    refine ⟨(scoped_iff ..).mp hs, ?_, ?_⟩
    · intro hp
      obtain ⟨s, rest, rfl⟩ := List.exists_cons_of_ne_nil hp
      have hu := inScope_head hs
      have hc := hc s List.mem_cons_self
      rw [← hdef]
      cases s <;> simp_all [TimeStmt.uses, TimeStmt.checks, timeMaximum, timeFrom]
    · rintro ⟨s, hmem, ha⟩
      have hc := hc s hmem
      cases s <;> simp only [TimeStmt.Arithmetic] at ha
      · simp only [TimeStmt.checks, timePlus, timeFrom, Bool.and_eq_true] at hc
        exact (operand_iff (hun hc.1.2)).mp hc.1.1
      · simp only [TimeStmt.checks, timePlusAssign, timePlus, timeFrom, Bool.and_eq_true] at hc
        exact (operand_iff (hun hc.1.2)).mp hc.1.1
  · rintro ⟨hs, hne, har⟩
    refine ⟨(scoped_iff ..).mpr hs, ?_⟩
    intro s hmem
    have hv := hne (List.ne_nil_of_mem hmem)
    have hd := hdef.mpr hv
    have hm : timeMove t = true := by
      rcases hv.1 with h1 | h1 | h1 | h1 <;> simp [timeMove, zeroOk, h1]
    have hp : s.Arithmetic → durationOperandOk t = true := fun hs =>
      (operand_iff (hun hd)).mpr (har ⟨s, hmem, hs⟩)
    clear hne har hv
    cases s <;>
      simp_all [TimeStmt.checks, TimeStmt.Arithmetic, timeFrom, timeMaximum, timeCopy, timePlus,
        timePlusAssign]

/-- C90. Every program over a valid time whose names are declared compiles. -/
theorem C90_valid_time_partial (t : TimeClass) (h : Layable t.usec t.members) (hv : ValidTime t)
    (p : List TimeStmt) :
    timeCompiles theLibrary t p = true ↔ Scoped TimeStmt.defines TimeStmt.uses p := by
  rw [C90_time_partial t h]
  obtain ⟨h1, h2, m, h3, h4, h5⟩ := hv
  constructor
  · exact fun h => h.1
  · intro hs
    refine ⟨hs, fun _ => ⟨Or.inl h1, h2, m, by rw [h3], h5⟩, fun _ => ⟨Or.inl h1, m, by rw [h3], Or.inl h4⟩⟩

/-- A program that declares times, takes the maximum, copies and moves, and adds durations. -/
def timeProgram : List TimeStmt :=
  [.declare 0, .getMaximum 1, .copy 2 1, .move 3 2, .plus 4 3, .plusAssign 4, .read 4 0]

example : timeCompiles theLibrary timeMonotonic timeProgram = true
    ∧ timeCompiles theLibrary ⟨int64, .ofUsec int64, []⟩ timeProgram = false
    ∧ timeCompiles theLibrary ⟨uint32, .ofUsec int64, []⟩ timeProgram = false
    ∧ ValidTime timeMonotonic ∧ Layable timeMonotonic.usec timeMonotonic.members :=
  ⟨by decide, by decide, by decide, ⟨rfl, rfl, int64, rfl, rfl, rfl⟩, ⟨by decide, by decide, by decide⟩,
    by intro m hm; cases hm⟩

/-- The full statement of C90: a program that makes a value compiles only if the class is valid. -/
def C90_Statement : Prop :=
  (∀ intSize (d : DurationClass), Layable d.usec d.members → ∀ p, p ≠ [] →
    durCompiles theLibrary intSize d p = true → ValidDuration d) ∧
  (∀ (t : TimeClass), Layable t.usec t.members → ∀ p, p ≠ [] →
    timeCompiles theLibrary t p = true → ValidTime t)

/-- `double`. -/
def double : Ty := ⟨.floating, 8, 8, 0⟩
/-- `void*` on a 64-bit machine. -/
def voidPointer : Ty := ⟨.pointer, 8, 8, 0⟩

/-- Both halves of the full statement of C90 fail: a duration over `double` can be declared, negated and
compared; a time over `void*` can be declared; and a time whose "duration" is itself a time passes for
every operation. -/
theorem C90_full_statement_fails :
    ¬ C90_Statement ∧
    durCompiles theLibrary 4 ⟨double, []⟩ [.declare 0, .neg 1 0, .abs 2 1, .read 2 0] = true ∧
    timeCompiles theLibrary ⟨voidPointer, .ofUsec int64, []⟩ [.declare 0, .getMaximum 1, .read 0 1] = true ∧
    timeCompiles theLibrary ⟨uint64, .ofUsec uint64, []⟩ timeProgram = true := by
  refine ⟨?_, by decide, by decide, by decide⟩
  intro h
  have h1 := h.1 4 ⟨double, []⟩ ⟨⟨by decide, by decide, by decide⟩, by intro m hm; cases hm⟩ [.declare 0]
    (by decide) (by decide)
  exact absurd h1.1 (by decide)

/-- C90. What the other assertions enforce: frames of at most 64 bytes, groups that read and write at
least one frame, pools of at least one block that holds a value. -/
theorem C90_parameters_partial (cc : Compiler) (mtu tx rx n b : Nat) (v : Option Nat) (hv : v ≠ some 0) :
    (frameOk theLibrary cc mtu = true ↔ mtu ≤ 64 ∧ (mtu = 0 → cc.zeroArrays = true)) ∧
    (groupOk theLibrary cc mtu tx rx = true ↔
      mtu ≤ 64 ∧ (mtu = 0 → cc.zeroArrays = true) ∧ 0 < tx ∧ 0 < rx) ∧
    (allocatorObjectOk theLibrary cc n b v = true ↔ 0 < n ∧ 0 < b ∧ ∀ s, v = some s → s ≤ b) := by
  have ha : ∀ k, arrayOk cc k = true ↔ (k = 0 → cc.zeroArrays = true) := by
    intro k
    simp only [arrayOk, Bool.or_eq_true, bne_iff_ne, ne_eq, Decidable.imp_iff_not_or]
  refine ⟨?_, ?_, ?_⟩
  · simp [frameOk, assertion, theLibrary, ha]
  · simp only [groupOk, frameOk, assertion, theLibrary, Bool.not_true, Bool.false_or, Bool.and_eq_true,
      decide_eq_true_eq, ha]
    constructor
    · rintro ⟨⟨⟨⟨⟨a, b⟩, c⟩, d⟩, _⟩, _⟩; exact ⟨a, b, c, d⟩
    · rintro ⟨a, b, c, d⟩; exact ⟨⟨⟨⟨⟨a, b⟩, c⟩, d⟩, by omega⟩, by omega⟩
  · simp only [allocatorObjectOk, allocatorOk, poolOk, assertion, theLibrary, Bool.not_true,
      Bool.false_or, Bool.and_eq_true, decide_eq_true_eq, ha]
    cases v with
    | none =>
      simp only [Option.getD_none, reduceCtorEq, false_implies, implies_true, and_true]
      constructor
      · rintro ⟨h1, ⟨h2, _⟩, _⟩; omega
      · rintro ⟨h1, h2⟩; exact ⟨h2, ⟨h1, by omega⟩, by omega⟩
    | some s =>
      have hs : s ≠ 0 := fun h => hv (by rw [h])
      simp only [Option.getD_some, Option.some.injEq, forall_eq']
      constructor
      · rintro ⟨h1, ⟨h2, _⟩, _⟩; omega
      · rintro ⟨h1, h2, h3⟩; exact ⟨h3, ⟨h1, by omega⟩, by omega⟩

example : groupOk theLibrary ⟨true, false⟩ 64 4 1 = true ∧ groupOk theLibrary ⟨true, false⟩ 64 4 0 = false
    ∧ allocatorObjectOk theLibrary ⟨true, false⟩ 0 8 none = false := by decide

/-- C90. Why the sizes of time and duration must agree: without that assertion a time can be declared and
added to whose duration is wider, and adding a non-negative duration then gives too little. -/
theorem C90_assertion_needed (w wr : Nat) (hw : w ≠ 1) (h : w + 1 < wr) :
    (∃ b, IsInt wr b ∧ 0 ≤ b ∧ SatMath.addM w 0 b = .ok 0 ∧ unsignedClamp w (0 + b) = 2 ^ w - 1) ∧
    timeCompiles (theLibrary.without .timeDur) ⟨uint32, .ofUsec int64, []⟩ timeProgram = true ∧
    timeCompiles theLibrary ⟨uint32, .ofUsec int64, []⟩ timeProgram = false := by
  refine ⟨⟨2 ^ w, ?_⟩, by decide, by decide⟩
  have hp : (0 : Int) < 2 ^ w := Int.pow_pos (by decide)
  have hlt : (2 : Int) ^ w < 2 ^ (wr - 1) := Int.pow_lt_pow_of_lt (by decide) (by omega)
  refine ⟨⟨by omega, by omega⟩, Int.le_of_lt hp, ?_, ?_⟩
  · have hc : convU w ((2 : Int) ^ w) = 0 := by simp [convU, castU, hw]
    have h0 : (2 : Int) ^ w ≥ 0 := Int.le_of_lt hp
    simp only [SatMath.addM, h0, if_true, hc]
    have := (SatMath.C03_unsigned_add_sub w 0 0 ⟨by omega, by omega⟩ ⟨by omega, by omega⟩).1
    rw [this]
    simp only [unsignedClamp, clamp, Outcome.ok.injEq]
    omega
  · simp only [unsignedClamp, clamp]; omega

/-! ## C91 -/

/-- C91 (partial), exactly: which versions of the library pass the compile tests. -/
theorem C91_exact_partial (lib : Library) (cc : Compiler) :
    compileTestsPass lib cc = true ↔
      lib .frameMtu = true ∧ lib .durSigned = true ∧ lib .timeUnsigned = true ∧ lib .timeDur = true ∧
      (cc.zeroArrays = true → lib .groupTx = true ∧ lib .groupRx = true) ∧
      (cc.unusedMemberError = false → lib .durSize = true ∧ lib .timeSize = true) := by
  obtain ⟨z, u⟩ := cc
  simp only [compileTestsPass, testCompiles, frameOk, groupOk, durCompiles, timeCompiles, assertion,
    arrayOk, unusedMemberOk, List.all_cons, List.all_nil, List.map_cons, List.map_nil, DurStmt.defines,
    DurStmt.uses, TimeStmt.defines, TimeStmt.uses, DurStmt.checks, TimeStmt.checks, durDefault,
    timeDefault, inScope]
  generalize lib .frameMtu = a1
  generalize lib .durSigned = a2
  generalize lib .timeUnsigned = a3
  generalize lib .timeDur = a4
  generalize lib .groupTx = a5
  generalize lib .groupRx = a6
  generalize lib .durSize = a7
  generalize lib .timeSize = a8
  have e1 : (DurationClass.size ⟨int64, [oneByte]⟩ == int64.size) = false := by decide
  have e2 : (DurationClass.size ⟨uint32, []⟩ == uint32.size) = true := by decide
  have e3 : (TimeClass.size ⟨uint64, .ofUsec int64, [oneByte]⟩ == uint64.size) = false := by decide
  have e4 : (TimeClass.size ⟨int64, .ofUsec int64, []⟩ == int64.size) = true := by decide
  have e5 : (TimeClass.size ⟨uint32, .ofUsec int64, []⟩ == uint32.size) = true := by decide
  have e6 : (TimeClass.size ⟨uint64, ⟨none, none⟩, []⟩ == uint64.size) = true := by decide
  rw [e1, e2, e3, e4, e5, e6]
  simp only [show zeroOk int64 = true from rfl, show zeroOk uint64 = true from rfl,
    show zeroOk uint32 = true from rfl, show isSigned int64 = true from rfl,
    show isSigned uint64 = false from rfl, show isSigned uint32 = false from rfl, sameSizeAsDuration,
    DType.ofUsec, show (uint64.size == int64.size) = true from rfl,
    show (int64.size == int64.size) = true from rfl, show (uint32.size == int64.size) = false from rfl]
  cases z <;> cases u <;> cases a1 <;> cases a2 <;> cases a3 <;> cases a4 <;>
    simp <;> cases a5 <;> cases a6 <;> simp

/-- C91. The library passes its compile tests, with every compiler. -/
theorem C91_passes_partial (cc : Compiler) : compileTestsPass theLibrary cc = true := by
  rw [C91_exact_partial]; simp [theLibrary]

/-- C91 (partial). When deleting one assertion is noticed: those of the two numeric types and of the
frame's size always, those of the sizes of the derived classes unless the compiler rejects an unused
private member anyway, those of the groups only if the compiler accepts arrays of no elements.
Missing from the full statement: the two assertions about pools, which no test would miss. -/
theorem C91_deletion_partial (cc : Compiler) (a : AssertId) :
    compileTestsPass (theLibrary.without a) cc = false ↔
      match a with
      | .durSigned | .timeUnsigned | .timeDur | .frameMtu => True
      | .durSize | .timeSize => cc.unusedMemberError = false
      | .groupTx | .groupRx => cc.zeroArrays = true
      | .poolBlocks | .poolFit => False := by
  rw [← Bool.not_eq_true, C91_exact_partial]
  cases a <;> simp [theLibrary, Library.without]

example : compileTestsPass (theLibrary.without .timeUnsigned) ⟨false, false⟩ = false := by decide

/-- C91 (partial), with the commands the tests run: if the build tool takes `--always-make`, the tests tell
what the sources do; if it does not (Ninja), they pass whatever the library is, so that no assertion is
guarded. -/
theorem C91_tool_partial (tool : BuildTool) (lib : Library) (cc : Compiler) :
    ctestPass tool lib cc = true ↔ tool.alwaysMake = true → compileTestsPass lib cc = true := by
  cases h : tool.alwaysMake <;> simp [ctestPass, buildSucceeds, compileTestsPass, h]

/-- C91: deleting every assertion is noticed with GNU make, and not with Ninja. -/
theorem C91_ninja_fails (cc : Compiler) :
    ctestPass ⟨true⟩ (fun _ => false) cc = false ∧ ctestPass ⟨false⟩ (fun _ => false) cc = true := by
  refine ⟨?_, by rw [C91_tool_partial]; simp⟩
  rw [← Bool.not_eq_true, C91_tool_partial, C91_exact_partial]; simp

/-- The full statement of C91: deleting any assertion makes some compile test fail. -/
def C91_Statement : Prop :=
  ∀ cc a, compileTestsPass (theLibrary.without a) cc = false

/-- The full statement of C91 fails, with every compiler: nothing tests that a pool has a block or that a
value fits. -/
theorem C91_full_statement_fails (cc : Compiler) :
    ¬ C91_Statement ∧ compileTestsPass (theLibrary.without .poolBlocks) cc = true ∧
    compileTestsPass (theLibrary.without .poolFit) cc = true ∧
    allocatorObjectOk (theLibrary.without .poolFit) cc 4 8 (some 16) = true ∧
    allocatorObjectOk theLibrary cc 4 8 (some 16) = false := by
  have h1 : compileTestsPass (theLibrary.without .poolBlocks) cc = true := by
    rw [C91_exact_partial]; simp [theLibrary, Library.without]
  have h2 : compileTestsPass (theLibrary.without .poolFit) cc = true := by
    rw [C91_exact_partial]; simp [theLibrary, Library.without]
  refine ⟨fun h => ?_, h1, h2, by simp [allocatorObjectOk, allocatorOk, poolOk, arrayOk, assertion,
    theLibrary, Library.without], by simp [allocatorObjectOk, allocatorOk, assertion, theLibrary]⟩
  rw [h cc .poolFit] at h2
  exact absurd h2 (by decide)

end Uavcan.CompileTime
