/-!
# Model of the coverage reports

The targets that run the native unit tests and report what they cover: test/cmake/modules/Findlcov.cmake and
test/native/tests.cmake:63–124. What the commands do to the build directory is modelled: the notes
(`.gcno`) the compiler writes, the counters (`.gcda`) a program adds to when it exits, and the `.info`
files of lcov. When make runs a command again is modelled as well.

Simplifications: there is one object per test (tests.cmake:84); objects of other programs do not contain code of the library. A test
does the same each time it is run. Compiling does not fail, and lcov fails only if a file is missing. An `.info` file
is a function from lines to counts; functions and branches are counted in the same way. Counters do not overflow.
-/

namespace Uavcan.Coverage

abbrev Test := String

/-- A line of a source file. -/
abbrev Loc := Nat

/-- An `.info` file: the lines that are listed, with the number of times they were executed. -/
abbrev Info := Loc → Option Nat

/-- The tests and what they do; the second argument of the functions is the version of the sources (of the test and of what it
includes). -/
structure World where
  /-- `NATIVE_TESTS` (tests.cmake:63–67). -/
  tests : List Test
  /-- The lines the object of a test has code for. -/
  lines : Test → Nat → Loc → Bool
  /-- How often a run of a test executes a line. -/
  hits : Test → Nat → Loc → Nat
  /-- Whether a test ends with status 0. -/
  passes : Test → Nat → Bool
  /-- The lines of files below libuavcan/include (Findlcov.cmake:87, tests.cmake:116). -/
  lib : Loc → Bool
  /-- Whether `make clean` leaves notes and counters. -/
  cleanKeeps : Bool

/-- The sources and the build directory. -/
structure Dir where
  /-- The version of the sources of each test. -/
  source : Test → Nat
  /-- The version each test was compiled from. -/
  exe : Test → Option Nat
  gcno : Test → Option Nat
  /-- The counters, and the version of the program that wrote them. -/
  gcda : Test → Option (Nat × (Loc → Nat))
  /-- coverage.baseline.info, which all tests share (Findlcov.cmake:64, 79). -/
  baseline : Option Info
  /-- coverage.X.test.info (Findlcov.cmake:74). -/
  testInfo : Test → Option Info
  /-- coverage.X.info (Findlcov.cmake:81). -/
  info : Test → Option Info
  /-- coverage.X.filtered.info (Findlcov.cmake:88). -/
  filtered : Test → Option Info
  /-- Whether coverage.X.filtered.info is newer than the test (Findlcov.cmake:89–90). -/
  fresh : Test → Bool
  /-- coverage.all.info (tests.cmake:99). -/
  all : Option Info
  /-- coverage.info (tests.cmake:110). -/
  total : Option Info

/-- Replaces the value for one test. -/
def upd {α : Type} (f : Test → α) (x : Test) (a : α) : Test → α := fun y => if y = x then a else f y

/-- What lcov makes of a line that is in two files. -/
def addCount : Option Nat → Option Nat → Option Nat
  | none, b => b
  | a, none => a
  | some a, some b => some (a + b)

/-- `--add-tracefile` of two files. -/
def Info.add (a b : Info) : Info := fun l => addCount (a l) (b l)

/-- `--add-tracefile` of any number of files. -/
def sumInfo (is : List Info) : Info := is.foldr Info.add fun _ => none

/-- `--extract`. -/
def extract (w : World) (i : Info) : Info := fun l => if w.lib l then i l else none

/-- What `lcov --capture --initial` reports for an object: its lines, with 0. -/
def initialOf (w : World) (d : Dir) (x : Test) : Info := fun l =>
  match d.gcno x with
  | none => none
  | some v => if w.lines x v l then some 0 else none

/-- What `lcov --capture` reports for an object, if there are counters: counters that were written by a program of another version
are ignored (gcov: stamp mismatch), and so are those without notes. -/
def captureOf (w : World) (d : Dir) (x : Test) : Info := fun l =>
  match d.gcda x, d.gcno x with
  | some (v', c), some v => if w.lines x v l then some (if v' = v then c l else 0) else none
  | _, _ => none

/-- The commands of `define_native_test_run_with_lcov`. -/
inductive Cmd where
  | zero
  | initial
  | run
  | capture
  | combine
  | extract
deriving DecidableEq, Repr

/-- Findlcov.cmake:52–88: the commands, in order. -/
def recipe : List Cmd := [.zero, .initial, .run, .capture, .combine, .extract]

/-- What a program compiled with `--coverage` does when it exits: it adds to the counters. -/
def runTest (w : World) (d : Dir) (x : Test) (v : Nat) : Dir :=
  { d with gcda := upd d.gcda x (some (v, match d.gcda x with
      | some (v', c) => if v' = v then fun l => c l + w.hits x v l else w.hits x v
      | none => w.hits x v)) }

/-- One command for one test, with its status. -/
def exec (w : World) (x : Test) (d : Dir) : Cmd → Bool × Dir
  | .zero => (true, { d with gcda := fun _ => none })                                         -- 52–56
  | .initial => (true, { d with baseline := some (sumInfo (w.tests.map (initialOf w d))) })   -- 57–64
  | .run =>                                                                                   -- 65–66
    match d.exe x with
    | none => (false, d)
    | some v => (w.passes x v, runTest w d x v)
  | .capture =>                                                                               -- 67–74
    if w.tests.any fun y => (d.gcda y).isSome then
      (true, { d with testInfo := upd d.testInfo x (some (sumInfo (w.tests.map (captureOf w d)))) })
    else (false, d)
  | .combine =>                                                                               -- 75–81
    match d.baseline, d.testInfo x with
    | some b, some t => (true, { d with info := upd d.info x (some (b.add t)) })
    | _, _ => (false, d)
  | .extract =>                                                                               -- 82–88
    match d.info x with
    | some i => (true, { d with filtered := upd d.filtered x (some (extract w i)) })
    | none => (false, d)

/-- Commands of tests in the order in which they happen, up to the first that fails. -/
def execAll (w : World) : List (Test × Cmd) → Dir → Bool × Dir
  | [], d => (true, d)
  | (x, c) :: cs, d =>
    match exec w x d c with
    | (true, d') => execAll w cs d'
    | (false, d') => (false, d')

/-- Building a test (tests.cmake:28, 84): nothing if it is up to date. -/
def compile (x : Test) (d : Dir) : Dir :=
  if d.exe x = some (d.source x) then d
  else { d with
    exe := upd d.exe x (some (d.source x))
    gcno := upd d.gcno x (some (d.source x))
    fresh := upd d.fresh x false }

/-- Building `run_X_with_lcov` (Findlcov.cmake:51–96): the test first (90), then the commands unless their output is newer. -/
def report (w : World) (x : Test) (d : Dir) : Bool × Dir :=
  let d := compile x d
  if d.fresh x then (true, d)
  else
    match execAll w (recipe.map fun c => (x, c)) d with
    | (true, d') => (true, { d' with fresh := upd d'.fresh x true })
    | (false, d') => (false, d')

/-- What make can do while it builds `cov_all`, besides the last two commands. -/
inductive Ev where
  | compile (x : Test)
  | report (x : Test)
deriving DecidableEq, Repr

/-- A list of these, up to the first that fails. -/
def runEvs (w : World) : List Ev → Dir → Bool × Dir
  | [], d => (true, d)
  | .compile x :: es, d => runEvs w es (compile x d)
  | .report x :: es, d =>
    match report w x d with
    | (true, d') => runEvs w es d'
    | (false, d') => (false, d')

/-- tests.cmake:98–119. coverage.all.info depends on targets without a file (106), which only orders the two: its command is run if
the file does not exist. coverage.info depends on the file (118). -/
def covInfo (w : World) (d : Dir) : Bool × Dir :=
  match d.all with
  | some a => (true, { d with total := some (d.total.getD (extract w a)) })
  | none =>
    match w.tests.mapM d.filtered with
    | some is => (true, { d with all := some (sumInfo is), total := some (extract w (sumInfo is)) })
    | none => (false, d)

/-- `make cov_all` with one job (tests.cmake:126–141, without the HTML). -/
def covAll (w : World) (es : List Ev) (d : Dir) : Bool × Dir :=
  match runEvs w es d with
  | (true, d') => covInfo w d'
  | (false, d') => (false, d')

/-- What can happen to the directory. -/
inductive Action where
  /-- The sources of some tests are edited. -/
  | edit (xs : List Test)
  | compile (x : Test)
  /-- `run_X` (tests.cmake:48–57). -/
  | run (x : Test)
  /-- `run_X_with_lcov`. -/
  | report (x : Test)
  /-- `lcov_zero` (tests.cmake:69–76). -/
  | zero
  | covAll (es : List Ev)
  /-- `make clean`: removes what the commands say they write. -/
  | clean
deriving Repr

def Action.apply (w : World) (d : Dir) : Action → Dir
  | .edit xs => { d with source := fun x => if x ∈ xs then d.source x + 1 else d.source x }
  | .compile x => Coverage.compile x d
  | .run x => runTest w (Coverage.compile x d) x (d.source x)
  | .report x => (Coverage.report w x d).2
  | .zero => { d with gcda := fun _ => none }
  | .covAll es => (Coverage.covAll w es d).2
  | .clean => { d with
      exe := fun _ => none
      gcno := if w.cleanKeeps then d.gcno else fun _ => none
      gcda := if w.cleanKeeps then d.gcda else fun _ => none
      filtered := fun _ => none
      fresh := fun _ => false
      all := none
      total := none }

/-- A directory in which nothing was built yet. -/
def Dir.new (source : Test → Nat) : Dir :=
  { source, exe := fun _ => none, gcno := fun _ => none, gcda := fun _ => none, baseline := none, testInfo := fun _ => none,
    info := fun _ => none, filtered := fun _ => none, fresh := fun _ => false, all := none, total := none }

end Uavcan.Coverage
