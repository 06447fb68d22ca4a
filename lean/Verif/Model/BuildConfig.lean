/-!
# Model of the build configuration

What becomes of the options of the build: `apply_flag_set` of test/cmake/common.cmake, the macros of
libuavcan/include/libuavcan/build_config.hpp and introspection.hpp, and the compiler flag sets of the
repository. Simplifications: the C, assembler and linker flags are not modelled (the macros are added to
the C flags in the same way, lines 43, 52, 61); no flag set defines one of the three macros itself, as
none in the repository does; of the flags only those for exceptions and `-DNDEBUG` are told apart.
-/

namespace Uavcan.BuildConfig

/-- A flag of the C++ compiler, as in the flag sets (test/cmake/compiler_flag_sets/*.cmake) and in what
CMake adds for a build type. -/
inductive Flag where
  /-- `-fexceptions`. -/
  | exceptions
  /-- `-fno-exceptions`. -/
  | noExceptions
  /-- `-DNDEBUG`. -/
  | ndebug
  /-- Any other flag. -/
  | other (text : String)
deriving DecidableEq, Repr

/-- The value of an option given to CMake (`-DLIBUAVCAN_ENABLE_EXCEPTIONS=…`): the file
test/cmake/common.cmake looks only at whether it is `DEFINED` (38, 42, 47, 51, 56, 60) and hands its text
to the compiler (44, 53, 62). -/
inductive Value where
  /-- A decimal number. -/
  | number (n : Nat)
  /-- One of CMake's words for yes (`ON`, `YES`, `TRUE`, `Y`), other than `true` in small letters. -/
  | yes
  /-- `true`, in small letters. -/
  | true_
  /-- One of CMake's words for no (`OFF`, `NO`, `FALSE`, …). -/
  | no
  /-- No text at all. -/
  | empty
deriving DecidableEq, Repr

/-- What the preprocessor makes of `#if M` for a macro defined with this text (memory.hpp:150, 161;
introspection.hpp:33, 47): a name that is no macro counts as 0, except `true`; without any text the
directive is an error (`none`). -/
def Value.holds : Value → Option Bool
  | .number n => some (n != 0)
  | .yes => some false
  | .true_ => some true
  | .no => some false
  | .empty => none

/-- The build types CMake knows (test/ci/native-gcc-build-and-test.sh:33–35, 48). -/
inductive Kind where
  | debug
  | release
  | relWithDebInfo
  | minSizeRel
  /-- The empty string or a name of the user's. -/
  | none
deriving DecidableEq, Repr

/-- `CMAKE_BUILD_TYPE`. CMake chooses the flags of a build type ignoring capitals; common.cmake:47 and 56
compare the text with `Debug`. -/
structure BuildType where
  /-- The build type meant. -/
  kind : Kind
  /-- Whether it is spelled with the capitals CMake's documentation uses. -/
  exact : Bool
deriving DecidableEq, Repr

/-- `CMAKE_BUILD_TYPE STREQUAL "Debug"` (common.cmake:47, 56). -/
def BuildType.isDebugText (b : BuildType) : Bool := b.kind == .debug && b.exact

/-- The flags CMake's defaults for GCC and Clang append for a build type; no file of the repository sets
`CMAKE_CXX_FLAGS_<type>`. -/
def BuildType.flags (b : BuildType) : List Flag :=
  match b.kind with
  | .debug => [.other "-g"]
  | .release => [.other "-O3", .ndebug]
  | .relWithDebInfo => [.other "-O2", .other "-g", .ndebug]
  | .minSizeRel => [.other "-Os", .ndebug]
  | .none => []

/-- What the user gives to CMake: the three options, the build type, `CMAKE_CXX_FLAGS`, and the flags of
`LIBUAVCAN_FLAG_SET` (test/CMakeLists.txt:36–41, 102). -/
structure Request where
  exceptions : Option Value
  assert_ : Option Value
  trace : Option Value
  build : BuildType
  userFlags : List Flag
  flagSet : List Flag
deriving DecidableEq, Repr

/-- What the compiler is called with: its flags in order, and the definitions of the three macros. -/
structure Command where
  flags : List Flag
  exceptions : Option Value
  assert_ : Option Value
  trace : Option Value
deriving DecidableEq, Repr

/-- common.cmake:38–40: without the option, `-fexceptions` among the flags sets it to 1. -/
def exceptionsOption (r : Request) : Option Value :=
  match r.exceptions with
  | some v => some v
  | none => if r.flagSet.contains .exceptions then some (.number 1) else none

/-- common.cmake:47–49: the condition asks for `LIBUAVCAN_ENABLE_EXCEPTIONS`, not for the option that is
set. -/
def assertOption (r : Request) : Option Value :=
  if (exceptionsOption r).isNone && r.build.isDebugText then some (.number 1) else r.assert_

/-- common.cmake:56–58. -/
def traceOption (r : Request) : Option Value :=
  if r.trace.isNone && r.build.isDebugText then some (.number 1) else r.trace

/-- `apply_flag_set` (common.cmake:18–74): the flags are those of the flag set (25–27), whatever
`CMAKE_CXX_FLAGS` was (68), the options that are defined become macros (42–45, 51–54, 60–63); CMake
appends the flags of the build type. -/
def applyFlagSet (r : Request) : Command where
  flags := r.flagSet ++ r.build.flags
  exceptions := exceptionsOption r
  assert_ := assertOption r
  trace := traceOption r

/-- A compiler: whether exceptions are enabled without a flag (as in GCC and Clang), and whether it
predefines `__cpp_exceptions` when they are (build_config.hpp:69–73). -/
structure Compiler where
  default : Bool
  featureMacro : Bool
deriving DecidableEq, Repr

/-- Whether exceptions are enabled: the last of the two flags decides. No definition of the repository;
documentation of GCC and Clang. -/
def Compiler.exceptions (c : Compiler) (flags : List Flag) : Bool :=
  flags.foldl (fun b f => match f with | .exceptions => true | .noExceptions => false | _ => b) c.default

/-- Whether the pool allocator throws (memory.hpp:150–153, 161–164) after build_config.hpp:74–78; `none` if
the preprocessor gives an error. -/
def throws (c : Compiler) (k : Command) : Option Bool :=
  match k.exceptions with
  | some v => v.holds
  | none => some (c.featureMacro && c.exceptions k.flags)

/-- Whether `LIBUAVCAN_TRACE` prints (introspection.hpp:18–20, 33–45). -/
def traces (k : Command) : Option Bool :=
  match k.trace with
  | some v => v.holds
  | none => some false

/-- Whether `LIBUAVCAN_ASSERT` checks (introspection.hpp:29–31, 47–55): `assert` of the standard library
checks nothing with `NDEBUG`. -/
def asserts (k : Command) : Option Bool :=
  match k.assert_ with
  | some v => v.holds.map (· && !k.flags.contains .ndebug)
  | none => some false

/-- The version check of build_config.hpp:42–50; the argument is the value of `__cplusplus`. -/
def versionAccepted (nocheck : Bool) (cplusplus : Nat) : Bool :=
  if nocheck then true
  else if cplusplus ≥ 201800 then false
  else if cplusplus > 201100 then true
  else false

/-! ### The flag sets of the repository -/

/-- native_common.cmake:15–33 (C flags). -/
def nativeCommonC : List Flag :=
  ["-pedantic", "-Wall", "-Wextra", "-Werror", "-Wfloat-equal", "-Wconversion", "-Wabi",
   "-Wunused-parameter", "-Wunused-variable", "-Wunused-value", "-Wcast-align", "-Wmissing-declarations",
   "-Wmissing-field-initializers", "-Wdouble-promotion", "-Wswitch-enum", "-Wtype-limits",
   "-Wno-error=array-bounds"].map .other

/-- native_common.cmake:35–57 (C++ flags). -/
def nativeCommon : List Flag :=
  nativeCommonC ++ [.other "-std=c++11", .other "-fno-rtti", .noExceptions] ++
    ["-Wsign-conversion", "-Wsign-promo", "-Wold-style-cast", "-Wzero-as-null-pointer-constant",
     "-Wnon-virtual-dtor", "-Woverloaded-virtual"].map .other

/-- native.cmake:14–24. -/
def native : List Flag :=
  nativeCommon ++ (nativeCommonC ++ ["-Og", "-ggdb"].map .other) ++ [.noExceptions]

/-- native_unittest.cmake:13–20. -/
def coverage : List Flag :=
  ["-fprofile-arcs", "-ftest-coverage", "--coverage", "-O0", "-DDEBUG", "-ggdb"].map .other

/-- native_unittest.cmake:13–27. -/
def nativeUnittest : List Flag := nativeCommon ++ (nativeCommonC ++ coverage) ++ [.noExceptions]

/-- native_unittest_w_exceptions.cmake:13–27. -/
def nativeUnittestExceptions : List Flag := nativeCommon ++ (nativeCommonC ++ coverage) ++ [.exceptions]

/-- cortex-m4-fpv4-sp-d16-nosys.cmake:17–55, 69–83. -/
def cortexM4 : List Flag :=
  ["-mcpu=cortex-m4", "-mthumb", "-mno-thumb-interwork", "-mfpu=fpv4-sp-d16", "-mfloat-abi=hard",
   "-ffunction-sections", "-fdata-sections", "-fno-strict-aliasing", "-Og", "-DDEBUG", "-ggdb",
   "-pedantic", "-Wall", "-Wextra", "-Werror", "-Wfloat-equal", "-Wabi", "-Wunused-parameter",
   "-Wunused-variable", "-Wunused-value", "-Wno-missing-field-initializers", "-Wdouble-promotion",
   "-Wtype-limits", "-Wno-error=array-bounds"].map .other ++
  [.other "-std=gnu++11", .other "-fno-rtti", .noExceptions, .other "-fno-threadsafe-statics"] ++
  ["-Wcast-align", "-Wsign-promo", "-Wold-style-cast", "-Wzero-as-null-pointer-constant",
   "-Wnon-virtual-dtor", "-Woverloaded-virtual"].map .other

/-- The flag sets the scripts and CMakeLists.txt:38 can choose. -/
def shipped : List (List Flag) := [native, nativeUnittest, nativeUnittestExceptions, cortexM4]

end Uavcan.BuildConfig
