import Verif.Core.Outcome
import Verif.Model.Result

/-!
# Model of the SocketCAN example: command line parsing

`parse_args`, `test/linux/example/media_on_linux/main.cpp:78–110`, together with glibc's `getopt_long` as it is used
there (`man 3 getopt`): long options may be abbreviated, arguments which are not options are skipped (they are
permuted to the end), `--` ends the options, a missing or superfluous argument or an unknown option gives `'?'`, and
`optarg` is null for an option without an argument. Not modelled: the environment variable `POSIXLY_CORRECT` and
error messages.
-/

namespace Uavcan.ParseArgs

abbrev Str := List Char

/-- The `val` of the entries of `long_options`, main.cpp:42–44. -/
inductive Opt where
  | d | c | e
  deriving DecidableEq, Repr

/-- The names in `long_options`, main.cpp:42–44. -/
def longOptions : List (Str × Opt) := [("device".toList, .d), ("continuous".toList, .c), ("c".toList, .e)]

/-- `getopt_long`'s search for a long option: an exact match, or else the only option the name abbreviates. -/
def lookup (name : Str) : Option Opt :=
  match longOptions.find? (fun p => p.1 == name) with
  | some p => some p.2
  | none =>
    match longOptions.filter (fun p => name.isPrefixOf p.1) with
    | [p] => some p.2
    | _ => none

/-- Split at the first `=`: the name and, if there is one, the value. -/
def splitEq : Str → Str × Option Str
  | [] => ([], none)
  | c :: cs => if c = '=' then ([], some cs) else let (n, v) := splitEq cs; (c :: n, v)

/-- `Namespace`, main.cpp:50–59. -/
structure Namespace where
  devices : List Str
  run_continuously : Bool
  deriving DecidableEq, Repr

/-- The loop of `parse_args`, main.cpp:81–109, over the arguments from the current one on. `required` says that
`long_options[0].has_arg` still is `required_argument`; `option_index` (83) is 0 for `-d` as well as for `--device`,
so 98 clears it in both cases. A null `optarg` given to `push_back` (97) is undefined behaviour. -/
def parseLoop (required : Bool) (ns : Namespace) : List Str → Outcome (Result × Namespace)
  | [] => .ok (if required then .BadArgument else .Success, ns)                              -- 87–90, 109
  | arg :: rest =>
    match arg with
    | '-' :: '-' :: [] => .ok (if required then .BadArgument else .Success, ns)              -- "--"
    | '-' :: '-' :: cs =>
      let (name, value) := splitEq cs
      match lookup name with
      | none => .ok (.SuccessPartial, ns)                                                    -- 101–102
      | some .d =>
        match value with
        | some v =>
          if required then parseLoop false { ns with devices := ns.devices ++ [v] } rest     -- 96–99
          else .ok (.SuccessPartial, ns)                                                     -- superfluous argument
        | none =>
          if required then
            match rest with
            | [] => .ok (.SuccessPartial, ns)                                                -- missing argument
            | v :: rest' => parseLoop false { ns with devices := ns.devices ++ [v] } rest'   -- 96–99
          else .ub .nullDeref                                                                -- 97, optarg is null
      | some _ =>
        match value with
        | some _ => .ok (.SuccessPartial, ns)                                                -- superfluous argument
        | none => parseLoop required { ns with run_continuously := true } rest               -- 91–94
    | '-' :: 'd' :: cs =>
      match cs with
      | [] =>
        match rest with
        | [] => .ok (.SuccessPartial, ns)                                                    -- missing argument
        | v :: rest' => parseLoop false { ns with devices := ns.devices ++ [v] } rest'       -- 96–99
      | _ => parseLoop false { ns with devices := ns.devices ++ [cs] } rest                  -- 96–99
    | '-' :: _ :: _ => .ok (.SuccessPartial, ns)                                             -- unknown option
    | _ => parseLoop required ns rest                                                        -- not an option
  termination_by args => args.length

/-- `parse_args`, main.cpp:78–110; `args` is `argv` without the program's name. -/
def parseArgs (args : List Str) : Outcome (Result × Namespace) := parseLoop true ⟨[], false⟩ args

end Uavcan.ParseArgs
