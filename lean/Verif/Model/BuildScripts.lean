/-!
# Model of the build scripts

The helper functions of CMake with a variable number of arguments (test/cmake/modules/Findnnvg.cmake,
Findclangformat.cmake, test/linux/tests.cmake), and the scripts of the build server (test/ci/*.sh,
.buildkite/pipeline.yml). Tools that are called (nnvg, cmake, ctest, …) are oracles. The script that checks
the style is in `Verif.Model.FormatCheck`.
-/

namespace Uavcan.BuildScripts

/-! ### CMake functions -/

/-- `${ARGV<n>}` in a function called with these arguments. Simplification: beyond the last argument CMake
leaves it undefined; here it is empty, as it is unless an outer scope has a variable of that name. -/
def argv (args : List String) (n : Nat) : String := args.getD n ""

/-- The values of `foreach(ARG_N RANGE <first> ${ARGC}-1)` (Findnnvg.cmake:35, Findclangformat.cmake:46,
linux/tests.cmake:22): CMake does not compute; it reads the number in front of `-1`, so that the loop
includes `${ARGC}` itself. -/
def rangeValues (first argc : Nat) : List Nat := List.range' first (argc + 1 - first)

/-- `LOOKUP_DIR_CMD_ARGS` of `create_dsdl_target` (Findnnvg.cmake:30–38); the arguments include the five
that have names. Each element is one argument of the commands in lines 44, 59 and 81. -/
def lookupArgs (args : List String) : List String :=
  if args.length > 6 then (rangeValues 6 args.length).map fun n => " -I " ++ argv args n else []

/-- The call of nnvg that lists the outputs (Findnnvg.cmake:40–45); `extension` is `NNVG_EXTENSION`. -/
def listOutputs (extension : String) (args : List String) : List String :=
  ["--list-outputs", "--output-extension", extension, "-O", argv args 1] ++ lookupArgs args ++ [argv args 3]

/-- `list(APPEND L ${ARGV<n>})` for a sequence of numbers, where an empty value adds nothing. -/
def appendArgs (args : List String) (ns : List Nat) : List String :=
  ns.flatMap fun n => if argv args n = "" then [] else [argv args n]

/-- The source files of `define_native_example` (linux/tests.cmake:17–25) and the files of
`create_apply_style_target` (Findclangformat.cmake:41–49); the arguments include the two that have names. -/
def restArgs (args : List String) : List String :=
  if args.length > 2 then appendArgs args (rangeValues 2 args.length) else []

/-- The arguments of `target_link_libraries` in linux/tests.cmake:28. The function has no parameter
`ARG_TEST_NAME`; what the variable is in the calling scope is the argument. -/
def linkArgs (argTestName : Option String) : List String :=
  (match argTestName with | some s => if s = "" then [] else [s] | none => []) ++ ["dsdl-regulated"]

/-! ### Scripts of the build server -/

/-- The scripts of test/ci whose results can matter to a reader of the pipeline, and the hook of the
machine with the board (pipeline.yml:60), which is not in the repository. -/
inductive Script where
  | nativeGcc
  | nativeGccExceptions
  | nativeClang
  | linux
  | s32kBuild
  | s32kHook
  | uploadDocs
  | uploadReports
deriving DecidableEq, Repr

/-- What the commands of the scripts do. -/
inductive Step where
  /-- `cmake ..` with the options of the script. -/
  | configure
  /-- `cmake --build . --target clean`. -/
  | clean
  /-- `cmake --build . --target all`: compiles every test, checks the style (CMakeLists.txt:107). -/
  | buildAll
  /-- `ctest -VV`: the compile tests. -/
  | compileTests
  /-- `cmake --build . --target cov_all` or `test_all`: runs the unit tests. -/
  | unitTests
  /-- `cmake --build . --target docs`. -/
  | docs
  /-- The command of the agent with the board. -/
  | hook
  /-- Publishing what was built. -/
  | upload
deriving DecidableEq, Repr

/-- The commands that can fail, in order. native-gcc-build-and-test.sh:46–76,
native-gcc-build-and-test-exceptions.sh:54–73, native-clang-build-and-test.sh:56–75, linux-build.sh:56–62,
ontarget-s32k-build.sh:53–70, pipeline.yml:60, postbuild-upload-docs.sh:32–34,
postbuild-upload-reports.sh:44–68 (the uploads as one command each). -/
def Script.steps : Script → List Step
  | .nativeGcc => [.configure, .clean, .buildAll, .compileTests, .unitTests, .docs]
  | .nativeGccExceptions => [.configure, .buildAll, .compileTests, .unitTests]
  | .nativeClang => [.configure, .buildAll, .compileTests, .unitTests]
  | .linux => [.configure, .buildAll]
  | .s32kBuild => [.configure, .buildAll, .compileTests]
  | .s32kHook => [.hook]
  | .uploadDocs => [.upload]
  | .uploadReports => [.upload]

/-- What happens when a command is run; `true` is status 0. -/
abbrev World := Script → Step → Bool

/-- `set -o errexit` (line 14 of every script): the commands run in order up to the first that fails; the
status, and what was run. -/
def runSteps (w : World) (s : Script) : List Step → Bool × List Step
  | [] => (true, [])
  | c :: cs =>
    if w s c then
      let (ok, log) := runSteps w s cs
      (ok, c :: log)
    else (false, [c])

/-- A script. -/
def Script.run (w : World) (s : Script) : Bool × List Step := runSteps w s s.steps

/-- The groups of the pipeline between its `wait`s (pipeline.yml:1–96); the last group runs on master
only (75–76, 93–94). -/
def groups (master : Bool) : List (List Script) :=
  [[.nativeGcc, .nativeClang, .s32kBuild], [.s32kHook]] ++
    (if master then [[.uploadDocs, .uploadReports]] else [])

/-- A group passes if all its scripts do; the next is run only then. The scripts that were run are listed
with their commands. -/
def runGroups (w : World) : List (List Script) → Bool × List (Script × Step)
  | [] => (true, [])
  | g :: gs =>
    let log := g.flatMap fun s => (s.run w).2.map fun c => (s, c)
    if g.all fun s => (s.run w).1 then
      let (ok, rest) := runGroups w gs
      (ok, log ++ rest)
    else (false, log)

/-- The pipeline: whether the build is green, and every command that was run. -/
def pipeline (w : World) (master : Bool) : Bool × List (Script × Step) := runGroups w (groups master)

/-- The command `[` of the shell with its arguments: status 2 without a closing bracket, otherwise by the
number of arguments; `none` for forms the script does not use. -/
def bracket (words : List String) : Option Nat :=
  if words.getLast? ≠ some "]" then some 2
  else match words.dropLast with
    | ["-z", s] => some (if s = "" then 0 else 1)
    | ["!", "-z", s] => some (if s = "" then 1 else 0)
    | _ => none

/-- What ontarget-s32k-test.sh does that can be observed. -/
inductive Action where
  | download (pattern : String)
  | list
  | announceSkip
  | complainNoPort
  | nait (port : String)
deriving DecidableEq, Repr

/-- The condition of ontarget-s32k-test.sh:33, as it is written: without a space before the bracket. -/
def downloadCondition (buildId : String) : Option Nat := bracket ["!", "-z", buildId ++ "]"]

/-- ontarget-s32k-test.sh:33–39. The script does not set `nounset`; an unset variable is empty. -/
def fetchArtifacts (condition : Option Nat) : List Action :=
  if condition = some 0 then
    [.download "test/build_ontarget_s32k/*.hex", .download "test/build_ontarget_s32k/*.jlink", .list]
  else [.announceSkip]

/-- ontarget-s32k-test.sh:30–54, with the first argument and the variables `NAIT_UART_DEVICE` and
`BUILDKITE_BUILD_ID` (empty if not set); whether the script gets past line 46, and what it does.
Simplification: the downloads succeed. -/
def onTargetTest (arg uart buildId : String) : Bool × List Action :=
  let port := if arg = "" then uart else arg
  let fetched := fetchArtifacts (downloadCondition buildId)
  if bracket ["-z", port, "]"] = some 0 then (false, fetched ++ [.complainNoPort]) else (true, fetched ++ [.nait port])

end Uavcan.BuildScripts
