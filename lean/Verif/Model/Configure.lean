/-!
# Model of configuring the build

A run of `cmake` on test/CMakeLists.txt, as far as the things it needs from outside are concerned (63–94): the modules Findvirtualenv.cmake,
Findpublic_regulated_data_types.cmake, Findgtest.cmake, Findlibuavcan_docs.cmake, Findclangformat.cmake and Findnnvg.cmake of test/cmake/modules.
What is kept between runs is the directory of external projects (common.cmake:7–12, CMakeLists.txt:26). Simplifications: the cache of CMake is
not modelled (every run has a build directory of its own, which is what the separate directory of external projects is for, CMakeLists.txt:23–24);
what is downloaded stays complete (ExternalProject removes and repeats an interrupted download by itself); every version of nnvg is recent enough
(Findnnvg.cmake:141); an environment sees only what is installed in it, as is virtualenv's default;
all runs use the same generator (Findgtest.cmake:17).
-/

namespace Uavcan.Configure

/-- What the commands find and do during one run; all of it is given from outside. -/
structure World where
  /-- `find_program(VIRTUALENV virtualenv)` finds it (Findvirtualenv.cmake:5). -/
  virtualenv : Bool
  /-- What `virtualenv -p python3` leaves (18): nothing, a directory without a working python, or an environment. -/
  creates : Option Bool
  /-- `pip install -r requirements.txt` gets at the packages (25). -/
  pip : Bool
  /-- The contents of requirements.txt, numbered. -/
  requirements : Nat
  /-- nunavut is installed outside the environment: `nnvg` is on the path and runs by itself. -/
  globalNnvg : Bool
  /-- The server of the data types can be reached (public_regulated_data_types.txt.in:7). -/
  dsdlServer : Bool
  /-- The server of googletest can be reached (Gtest.txt.in:7). -/
  gtestServer : Bool
  /-- `find_package(Doxygen QUIET)` finds it (Findlibuavcan_docs.cmake:7). -/
  doxygen : Bool
  /-- `find_program(CLANG_FORMAT clang-format)` finds it (Findclangformat.cmake:5). -/
  clangFormat : Bool
  /-- nnvg understands the data types: `--list-outputs` and `--list-inputs` succeed when nnvg runs (Findnnvg.cmake:40–68). -/
  lists : Bool

/-- The directory `.pyenv` (Findvirtualenv.cmake:9): whether its python runs, and which requirements are installed in it. -/
structure Env where
  python : Bool
  installed : Option Nat
deriving DecidableEq

/-- The directory of external projects (common.cmake:7–12). -/
structure State where
  pyenv : Option Env
  dsdl : Bool
  gtest : Bool
deriving DecidableEq

/-- An empty directory (CMakeLists.txt:26). -/
def State.empty : State := ⟨none, false, false⟩

/-- Findvirtualenv.cmake:5–31: nothing is done if the directory exists (15, 28); the results of both commands are ignored (18–26). `pip` runs with the
python of the environment (11–12). -/
def findVirtualenv (w : World) (s : State) : State :=
  if w.virtualenv then
    match s.pyenv with
    | some _ => s
    | none =>
      match w.creates with
      | none => s
      | some python => { s with pyenv := some ⟨python, if python && w.pip then some w.requirements else none⟩ }
  else s

/-- Findpublic_regulated_data_types.cmake:5–25: the download is made once. -/
def fetchDsdl (w : World) (s : State) : State := { s with dsdl := s.dsdl || w.dsdlServer }

/-- Findgtest.cmake:14–40. -/
def fetchGtest (w : World) (s : State) : State := { s with gtest := s.gtest || w.gtestServer }

/-- Where `find_program(NNVG nnvg …)` finds nnvg (Findnnvg.cmake:106–120). -/
inductive Found where
  | none
  | inEnv
  | onPath

/-- Findnnvg.cmake:106–120. -/
def findNnvg (w : World) (s : State) : Found :=
  if w.virtualenv then
    match s.pyenv with
    | some e => if e.installed.isSome then .inEnv else if w.globalNnvg then .onPath else .none
    | none => if w.globalNnvg then .onPath else .none
  else if w.globalNnvg then .onPath else .none

/-- Whether `${PYTHON} ${NNVG}` runs (Findnnvg.cmake:40, 55, 126): `PYTHON` is the python of the environment if virtualenv is found
(Findvirtualenv.cmake:11) and empty otherwise; that python knows only what is installed in the environment. -/
def nnvgRuns (w : World) (s : State) : Bool :=
  match findNnvg w s with
  | .none => false
  | .inEnv | .onPath =>
    if w.virtualenv then
      match s.pyenv with
      | some e => e.python && e.installed.isSome
      | none => false
    else true

/-- A run (CMakeLists.txt:63–94): whether it succeeds, and the directory afterwards. Everything but virtualenv is `REQUIRED`, which ends the run if the
variable is not set: `PUBLIC_REGULATED_DATA_TYPES_FOUND`, `GTEST_FOUND`, `DOXYGEN_FOUND`, `CLANG_FORMAT`, `NNVG_VERSION`. -/
def run (w : World) (s : State) : Bool × State :=
  let s := findVirtualenv w s
  let s := fetchDsdl w s
  if !s.dsdl then (false, s)
  else
    let s := fetchGtest w s
    if !s.gtest then (false, s)
    else if !w.doxygen then (false, s)
    else if !w.clangFormat then (false, s)
    else if !nnvgRuns w s then (false, s)
    else if !w.lists then (false, s)
    else (true, s)

/-- What a user does: run cmake, or delete the environment as the message of Findvirtualenv.cmake:28 suggests. -/
inductive Action where
  | run (w : World)
  | deleteEnv

/-- The directory after one action. -/
def Action.apply (s : State) : Action → State
  | .run w => (Configure.run w s).2
  | .deleteEnv => { s with pyenv := none }

/-- After several. -/
def after (s : State) (as : List Action) : State := as.foldl Action.apply s

end Uavcan.Configure
