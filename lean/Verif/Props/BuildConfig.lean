import Verif.Model.BuildConfig

/-!
# Properties of the build configuration

The specification: what an option means to those who give it (CMake's words for yes and no), that an
option given takes effect, and the defaults which introspection.hpp, build_config.hpp and common.cmake
set out.
-/

namespace Uavcan.BuildConfig

/-! ## Specification -/

/-- Whether a value means yes, by CMake's rules for `if(<constant>)`. -/
def Value.Yes : Value → Prop
  | .number n => n ≠ 0
  | .yes => True
  | .true_ => True
  | .no => False
  | .empty => False

/-- A feature is as the option says. -/
def Obeys (feature : Option Bool) (v : Value) : Prop := ∃ b, feature = some b ∧ (b = true ↔ v.Yes)

/-- Exceptions are enabled: `-fexceptions` comes after every `-fno-exceptions`, or neither is given and
the compiler enables them by itself. -/
def Enabled (c : Compiler) (flags : List Flag) : Prop :=
  (∃ a b, flags = a ++ .exceptions :: b ∧ Flag.noExceptions ∉ b) ∨
    (Flag.exceptions ∉ flags ∧ Flag.noExceptions ∉ flags ∧ c.default = true)

/-- Every option given takes effect, flags given are used, and without options a debug build traces and
asserts and another does not. -/
def OptionsTakeEffect (c : Compiler) (r : Request) : Prop :=
  (∀ v, r.exceptions = some v → Obeys (throws c (applyFlagSet r)) v) ∧
  (∀ v, r.assert_ = some v → Obeys (asserts (applyFlagSet r)) v) ∧
  (∀ v, r.trace = some v → Obeys (traces (applyFlagSet r)) v) ∧
  (r.assert_ = none → asserts (applyFlagSet r) = some (decide (r.build.kind = .debug))) ∧
  (r.trace = none → traces (applyFlagSet r) = some (decide (r.build.kind = .debug))) ∧
  (∀ f ∈ r.userFlags, f ∈ (applyFlagSet r).flags)

/-- The values that mean the same to CMake and to the preprocessor. -/
def Value.Plain (v : Value) : Prop := v ≠ .yes ∧ v ≠ .empty

/-- The condition of common.cmake:47 holds, which sets the assertions to 1 whatever the user says. -/
def AssertForced (r : Request) : Prop :=
  r.exceptions = none ∧ Flag.exceptions ∉ r.flagSet ∧ r.build = ⟨.debug, true⟩

/-- `NDEBUG` is defined, by the flag set or by the build type. -/
def NDebug (r : Request) : Prop :=
  Flag.ndebug ∈ r.flagSet ∨ r.build.kind = .release ∨ r.build.kind = .relWithDebInfo ∨
    r.build.kind = .minSizeRel

/-! ## Lemmas -/

private theorem obeys_holds (v : Value) : Obeys v.holds v ↔ v.Plain := by
  cases v <;> simp [Obeys, Value.holds, Value.Yes, Value.Plain]

private theorem contains_iff (l : List Flag) (f : Flag) : l.contains f = true ↔ f ∈ l := by simp

private theorem ndebug_iff (r : Request) :
    (applyFlagSet r).flags.contains .ndebug = true ↔ NDebug r := by
  rw [contains_iff]
  simp only [applyFlagSet, List.mem_append, NDebug, BuildType.flags]
  cases r.build.kind <;> simp

private theorem debugText_iff (b : BuildType) : b.isDebugText = true ↔ b = ⟨.debug, true⟩ := by
  obtain ⟨k, e⟩ := b
  cases k <;> cases e <;> simp [BuildType.isDebugText]

private theorem forced_iff (r : Request) :
    ((exceptionsOption r).isNone && r.build.isDebugText) = true ↔ AssertForced r := by
  rw [Bool.and_eq_true, debugText_iff]
  unfold AssertForced exceptionsOption
  cases h : r.exceptions with
  | some v => simp
  | none =>
    by_cases hc : Flag.exceptions ∈ r.flagSet
    · simp [hc]
    · simp [hc]

private theorem enabled_aux (flags : List Flag) : ∀ d : Bool,
    flags.foldl (fun b f => match f with | .exceptions => true | .noExceptions => false | _ => b) d = true ↔
      (∃ a b, flags = a ++ .exceptions :: b ∧ Flag.noExceptions ∉ b) ∨
        (Flag.exceptions ∉ flags ∧ Flag.noExceptions ∉ flags ∧ d = true) := by
  induction flags with
  | nil => intro d; simp
  | cons f fs ih =>
    intro d
    rw [List.foldl_cons, ih]
    have key : (∃ a b, f :: fs = a ++ .exceptions :: b ∧ Flag.noExceptions ∉ b) ↔
        (f = .exceptions ∧ Flag.noExceptions ∉ fs) ∨
          (∃ a b, fs = a ++ .exceptions :: b ∧ Flag.noExceptions ∉ b) := by
      constructor
      · rintro ⟨a, b, hab, hb⟩
        cases a with
        | nil =>
          rw [List.nil_append, List.cons.injEq] at hab
          exact .inl ⟨hab.1, hab.2 ▸ hb⟩
        | cons x a =>
          rw [List.cons_append, List.cons.injEq] at hab
          exact .inr ⟨a, b, hab.2, hb⟩
      · rintro (⟨rfl, h⟩ | ⟨a, b, rfl, h⟩)
        · exact ⟨[], fs, rfl, h⟩
        · exact ⟨f :: a, b, rfl, h⟩
    rw [key]
    by_cases he : Flag.exceptions ∈ fs
    · by_cases hn : Flag.noExceptions ∈ fs
      · cases f <;> simp [he, hn]
      · obtain ⟨a, b, hab⟩ := List.append_of_mem he
        have : ∃ a b, fs = a ++ .exceptions :: b ∧ Flag.noExceptions ∉ b :=
          ⟨a, b, hab, fun h => hn (by rw [hab]; simp [h])⟩
        cases f <;> simp [he, hn, this]
    · cases f <;> simp [he, or_comm]

/-- The model's fold is the rule that the last flag decides. -/
theorem exceptions_iff (c : Compiler) (flags : List Flag) :
    c.exceptions flags = true ↔ Enabled c flags :=
  enabled_aux flags c.default

private theorem exceptions_append (c : Compiler) (r : Request) :
    c.exceptions (applyFlagSet r).flags = c.exceptions r.flagSet := by
  simp only [applyFlagSet, Compiler.exceptions, List.foldl_append, BuildType.flags]
  cases r.build.kind <;> rfl

private theorem shipped_table : ∀ d : Bool, ∀ fs ∈ shipped,
    ((Flag.exceptions ∈ fs) = (fs = nativeUnittestExceptions)) ∧
      (Compiler.mk d true).exceptions fs = decide (fs = nativeUnittestExceptions) := by
  have h : ∀ d : Bool, ∀ fs ∈ shipped,
      (decide (Flag.exceptions ∈ fs) = decide (fs = nativeUnittestExceptions)) ∧
        (Compiler.mk d true).exceptions fs = decide (fs = nativeUnittestExceptions) := by decide +kernel
  intro d fs hfs
  refine ⟨propext ?_, (h d fs hfs).2⟩
  exact decide_eq_decide.1 (h d fs hfs).1

/-! ## C92 -/

/-- C92. `LIBUAVCAN_ENABLE_EXCEPTIONS` takes effect exactly if it is given as a number, as `true` or as a
word for no. -/
theorem C92_exceptions_partial (c : Compiler) (r : Request) (v : Value) (h : r.exceptions = some v) :
    Obeys (throws c (applyFlagSet r)) v ↔ v.Plain := by
  rw [← obeys_holds]
  simp only [throws, applyFlagSet, exceptionsOption, h]

/-- C92. `LIBUAVCAN_INTROSPECTION_TRACE_ENABLE` takes effect exactly if it is given as a number, as `true`
or as a word for no. -/
theorem C92_trace_partial (r : Request) (v : Value) (h : r.trace = some v) :
    Obeys (traces (applyFlagSet r)) v ↔ v.Plain := by
  rw [← obeys_holds]
  simp only [traces, applyFlagSet, traceOption, h, Option.isNone_some, Bool.false_and,
    Bool.false_eq_true, if_false]

/-- C92. Without the option, exactly the debug builds trace, except those which spell the build type with
other capitals. -/
theorem C92_trace_default_partial (r : Request) (h : r.trace = none) :
    (traces (applyFlagSet r) = some (decide (r.build.kind = .debug))) ↔
      (r.build.kind = .debug → r.build.exact = true) := by
  simp only [traces, applyFlagSet, traceOption, h, Option.isNone_none, Bool.true_and]
  obtain ⟨k, e⟩ := r.build
  cases k <;> cases e <;> simp [BuildType.isDebugText, Value.holds]

/-- C92. `LIBUAVCAN_INTROSPECTION_ENABLE_ASSERT` takes effect exactly if: in a debug build for which
nothing is said of exceptions, it says yes and the flag set does not define `NDEBUG`; in other builds, it
is a plain value, and says no or `NDEBUG` is not defined. -/
theorem C92_assert_partial (r : Request) (v : Value) (h : r.assert_ = some v) :
    Obeys (asserts (applyFlagSet r)) v ↔
      (AssertForced r ∧ (v.Yes ↔ ¬ NDebug r)) ∨ (¬ AssertForced r ∧ v.Plain ∧ (v.Yes → ¬ NDebug r)) := by
  have hn := ndebug_iff r
  haveI : Decidable (AssertForced r) := Classical.propDecidable _
  have ha : (applyFlagSet r).assert_ = if AssertForced r then some (.number 1) else some v := by
    show assertOption r = _
    unfold assertOption
    by_cases hf : AssertForced r
    · rw [if_pos ((forced_iff r).2 hf), if_pos hf]
    · rw [if_neg (fun h => hf ((forced_iff r).1 h)), if_neg hf, h]
  unfold asserts
  rw [ha]
  by_cases hf : AssertForced r
  · rw [if_pos hf]
    by_cases hd : NDebug r
    · rw [hn.2 hd]
      simp [Obeys, Value.holds, hf, hd]
    · rw [Bool.eq_false_iff.2 (fun h => hd (hn.1 h))]
      simp [Obeys, Value.holds, hf, hd]
  · rw [if_neg hf]
    by_cases hd : NDebug r
    · rw [hn.2 hd]
      cases v <;> simp [Obeys, Value.holds, Value.Yes, Value.Plain, hf, hd]
    · rw [Bool.eq_false_iff.2 (fun h => hd (hn.1 h))]
      cases v <;> simp [Obeys, Value.holds, Value.Yes, Value.Plain, hf, hd]

/-- C92. Without the option, exactly the debug builds assert if the build type is spelled `Debug`, nothing
is said of exceptions, and the flag set does not define `NDEBUG`; no other build asserts. -/
theorem C92_assert_default_partial (r : Request) (h : r.assert_ = none) :
    (asserts (applyFlagSet r) = some (decide (r.build.kind = .debug))) ↔
      (r.build.kind = .debug → AssertForced r ∧ Flag.ndebug ∉ r.flagSet) := by
  have hn := ndebug_iff r
  haveI : Decidable (AssertForced r) := Classical.propDecidable _
  have ha : (applyFlagSet r).assert_ = if AssertForced r then some (Value.number 1) else none := by
    show assertOption r = _
    unfold assertOption
    by_cases hf : AssertForced r
    · rw [if_pos ((forced_iff r).2 hf), if_pos hf]
    · rw [if_neg (fun h => hf ((forced_iff r).1 h)), if_neg hf, h]
  unfold asserts
  rw [ha]
  by_cases hf : AssertForced r
  · have hk : r.build.kind = .debug := by rw [hf.2.2]
    rw [if_pos hf]
    by_cases hd : NDebug r
    · have hm : Flag.ndebug ∈ r.flagSet := by
        rcases hd with hd | hd | hd | hd
        · exact hd
        all_goals rw [hk] at hd; cases hd
      rw [hn.2 hd]
      simp [Value.holds, hk, hm]
    · rw [Bool.eq_false_iff.2 (fun h => hd (hn.1 h))]
      have hm : Flag.ndebug ∉ r.flagSet := fun h => hd (.inl h)
      simp [Value.holds, hk, hm, hf]
  · rw [if_neg hf]
    by_cases hk : r.build.kind = .debug
    · simp [hk, hf]
    · simp [hk]

/-- C92. `CMAKE_CXX_FLAGS` has no effect at all. -/
theorem C92_flags_partial (r : Request) (flags : List Flag) :
    applyFlagSet { r with userFlags := flags } = applyFlagSet r := rfl

/-- C92. All options take effect if they are given plainly, the build type is spelled as CMake does, a debug
build says nothing of exceptions nor against assertions, another does not ask for assertions with `NDEBUG`,
and no flags are given but those of the flag set. -/
theorem C92_options_partial (c : Compiler) (r : Request)
    (hv : ∀ v, r.exceptions = some v ∨ r.assert_ = some v ∨ r.trace = some v → v.Plain)
    (hs : r.build.kind = .debug → AssertForced r ∧ Flag.ndebug ∉ r.flagSet)
    (ha : ∀ v, r.assert_ = some v → (v.Yes → ¬ NDebug r) ∧ (r.build.kind = .debug → v.Yes))
    (hf : r.userFlags = []) : OptionsTakeEffect c r := by
  refine ⟨fun v h => (C92_exceptions_partial c r v h).2 (hv v (.inl h)), fun v h => ?_,
    fun v h => (C92_trace_partial r v h).2 (hv v (.inr (.inr h))),
    fun h => (C92_assert_default_partial r h).2 hs,
    fun h => (C92_trace_default_partial r h).2 (fun hk => by rw [(hs hk).1.2.2]), ?_⟩
  · rw [C92_assert_partial r v h]
    by_cases hF : AssertForced r
    · have hk : r.build.kind = .debug := by rw [hF.2.2]
      exact .inl ⟨hF, (ha v h).1, fun _ => (ha v h).2 hk⟩
    · exact .inr ⟨hF, hv v (.inr (.inl h)), (ha v h).1⟩
  · rw [hf]
    intro f h
    cases h

/-- C92 is false. A debug build that asks for no assertions gets them; one with exceptions gets none by
default; `ON` switches tracing off; a release build that asks for assertions gets none. -/
theorem C92_full_statement_fails (c : Compiler) :
    (∃ r : Request, r.build = ⟨.debug, true⟩ ∧ r.flagSet ∈ shipped ∧ r.assert_ = some (.number 0) ∧
      asserts (applyFlagSet r) = some true) ∧
    (∃ r : Request, r.build = ⟨.debug, true⟩ ∧ r.flagSet ∈ shipped ∧ r.assert_ = none ∧
      asserts (applyFlagSet r) = some false) ∧
    (∃ r : Request, r.flagSet ∈ shipped ∧ r.trace = some .yes ∧ traces (applyFlagSet r) = some false) ∧
    (∃ r : Request, r.build.kind = .release ∧ r.flagSet ∈ shipped ∧ r.assert_ = some (.number 1) ∧
      asserts (applyFlagSet r) = some false) ∧
    ¬ ∀ r, OptionsTakeEffect c r := by
  have hmem : native ∈ shipped := by simp [shipped]
  refine ⟨⟨⟨none, some (.number 0), none, ⟨.debug, true⟩, [], native⟩, rfl, hmem, rfl, by decide⟩,
    ⟨⟨none, none, none, ⟨.debug, true⟩, [], nativeUnittestExceptions⟩, rfl, by simp [shipped], rfl,
      by decide⟩,
    ⟨⟨none, none, some .yes, ⟨.debug, true⟩, [], native⟩, hmem, rfl, by decide⟩,
    ⟨⟨none, some (.number 1), none, ⟨.release, true⟩, [], native⟩, rfl, hmem, rfl, by decide⟩, ?_⟩
  intro h
  have h1 := (h ⟨none, none, some .yes, ⟨.debug, true⟩, [], native⟩).2.2.1 .yes rfl
  exact absurd rfl ((C92_trace_partial _ .yes rfl).1 h1).1

/-- C92, example: the native build of the scripts in its default, a debug build without options. -/
example (c : Compiler) : OptionsTakeEffect c ⟨none, none, none, ⟨.debug, true⟩, [], nativeUnittest⟩ :=
  C92_options_partial c _ (by simp) (fun _ => ⟨⟨rfl, by decide, rfl⟩, by decide⟩) (by simp) rfl

/-- C92, example: a release build that switches tracing on and assertions off. -/
example (c : Compiler) :
    OptionsTakeEffect c ⟨some (.number 0), some (.number 0), some (.number 1), ⟨.release, true⟩, [], native⟩ :=
  C92_options_partial c _ (by rintro v (⟨⟨⟩⟩ | ⟨⟨⟩⟩ | ⟨⟨⟩⟩) <;> simp [Value.Plain]) (by simp)
    (by rintro v ⟨⟩; simp [Value.Yes]) rfl

/-! ## C93 -/

/-- C93. Without the option, the pool allocator throws exactly if `-fexceptions` is anywhere among the
flags, or the compiler enables exceptions and says so with its feature macro. -/
theorem C93_exact_partial (c : Compiler) (r : Request) (h : r.exceptions = none) :
    ∃ b, throws c (applyFlagSet r) = some b ∧
      (b = true ↔ Flag.exceptions ∈ r.flagSet ∨ (c.featureMacro = true ∧ Enabled c r.flagSet)) := by
  unfold throws
  rw [exceptions_append, ← exceptions_iff]
  simp only [applyFlagSet, exceptionsOption, h]
  by_cases he : Flag.exceptions ∈ r.flagSet
  · simp [he, Value.holds]
  · simp [he]

/-- C93. Without the option, the pool allocator throws if and only if the program is compiled with
exceptions, exactly for the flags which enable exceptions if they have `-fexceptions` at all, and for the
compilers which have the feature macro or need the flag. -/
theorem C93_agrees_partial (c : Compiler) (r : Request) (h : r.exceptions = none) :
    (throws c (applyFlagSet r) = some true ↔ Enabled c r.flagSet) ↔
      (Flag.exceptions ∈ r.flagSet → Enabled c r.flagSet) ∧
        (Flag.exceptions ∉ r.flagSet → Enabled c r.flagSet → c.featureMacro = true) := by
  obtain ⟨b, hb, hiff⟩ := C93_exact_partial c r h
  rw [hb, Option.some.injEq, hiff]
  by_cases he : Flag.exceptions ∈ r.flagSet <;> by_cases hc : Enabled c r.flagSet <;> simp [he, hc]

/-- C93. For the flag sets of the repository it holds, with every compiler, whatever the build type and the
other options: only the set with exceptions has a pool that throws. -/
theorem C93_shipped_partial (c : Compiler) (r : Request) (h : r.exceptions = none) (hs : r.flagSet ∈ shipped) :
    (throws c (applyFlagSet r) = some true ↔ Enabled c r.flagSet) ∧
      (throws c (applyFlagSet r) = some true ↔ r.flagSet = nativeUnittestExceptions) := by
  have ht := shipped_table c.default r.flagSet hs
  obtain ⟨b, hb, hiff⟩ := C93_exact_partial c r h
  rw [hb, Option.some.injEq, hiff, ← exceptions_iff]
  have hd : c.exceptions r.flagSet = (Compiler.mk c.default true).exceptions r.flagSet := rfl
  rw [hd, ht.1, ht.2, decide_eq_true_iff]
  simp only [or_iff_left_iff_imp, and_imp, imp_self, implies_true, and_self]

/-- C93. The headers accept C++11, C++14 and C++17 and nothing older or newer, unless the check is
switched off: of the values of `__cplusplus`, those above 201100 and below 201800. -/
theorem C93_version (nocheck : Bool) (v : Nat) :
    versionAccepted nocheck v = true ↔ nocheck = true ∨ (201100 < v ∧ v < 201800) := by
  unfold versionAccepted
  cases nocheck
  · by_cases h1 : v ≥ 201800
    · simp [h1]
    · by_cases h2 : v > 201100
      · simp [h1, h2]; omega
      · simp [h1, h2]
  · simp

/-- The values of `__cplusplus` for the versions of the language ([cpp.predefined] of each). -/
def versionMacro : String → Option Nat
  | "-std=c++98" | "-std=gnu++98" => some 199711
  | "-std=c++11" | "-std=gnu++11" => some 201103
  | "-std=c++14" | "-std=gnu++14" => some 201402
  | "-std=c++17" | "-std=gnu++17" => some 201703
  | "-std=c++20" | "-std=gnu++20" => some 202002
  | _ => none

/-- The value of `__cplusplus` with these flags, for a compiler with this default: the last option for it counts. -/
def cplusplusOf (default : Nat) (flags : List Flag) : Nat :=
  flags.foldl (fun v f => match f with | .other o => (versionMacro o).getD v | _ => v) default

/-- C93. With each of the flag sets of the repository the language is C++11, whatever the default of the compiler is,
and the headers accept it without `LIBUAVCAN_CPP_VERSION_NOCHECK`. -/
theorem C93_language (default : Nat) (fs : List Flag) (hs : fs ∈ shipped) :
    cplusplusOf default fs = 201103 ∧ versionAccepted false (cplusplusOf default fs) = true := by
  have h : cplusplusOf default fs = 201103 := by
    simp only [shipped, List.mem_cons, List.not_mem_nil, or_false] at hs
    rcases hs with rfl | rfl | rfl | rfl <;> rfl
  rw [h]
  exact ⟨rfl, rfl⟩

/-- C93 is false: a flag set which turns exceptions on and, later, off again has a pool that throws (which
no compiler accepts without exceptions); and a compiler with exceptions by default but without the feature
macro has a pool that returns null. -/
theorem C93_full_statement_fails :
    (∀ c : Compiler, ∃ r : Request, r.exceptions = none ∧ throws c (applyFlagSet r) = some true ∧
      ¬ Enabled c r.flagSet) ∧
    (∃ (c : Compiler) (r : Request), r.exceptions = none ∧ throws c (applyFlagSet r) = some false ∧
      Enabled c r.flagSet) := by
  refine ⟨fun c => ⟨⟨none, none, none, ⟨.debug, true⟩, [], [.exceptions, .noExceptions]⟩, rfl, rfl, ?_⟩,
    ⟨true, false⟩, ⟨none, none, none, ⟨.debug, true⟩, [], []⟩, rfl, rfl, ?_⟩
  · rw [← exceptions_iff]; simp [Compiler.exceptions]
  · rw [← exceptions_iff]; rfl

/-- C93, example: C++11, C++14, C++17 by their values of `__cplusplus`; not C++98 nor C++20. -/
example : versionAccepted false 201103 = true ∧ versionAccepted false 201402 = true ∧
    versionAccepted false 201703 = true ∧ versionAccepted false 199711 = false ∧
    versionAccepted false 202002 = false := by decide

/-- C93, example: flags meeting the condition with `-fno-exceptions` before `-fexceptions`. -/
example (c : Compiler) : throws c (applyFlagSet ⟨none, none, none, ⟨.none, false⟩, [],
    [.noExceptions, .exceptions]⟩) = some true ∧ Enabled c [.noExceptions, .exceptions] :=
  ⟨rfl, .inl ⟨[.noExceptions], [], rfl, by simp⟩⟩

end Uavcan.BuildConfig
