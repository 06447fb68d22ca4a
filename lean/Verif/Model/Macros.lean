/-!
# Model: macros that look like functions

`LIBUAVCAN_ASSERT`, `LIBUAVCAN_TRACE` and `LIBUAVCAN_TRACEF` of libuavcan/include/libuavcan/introspection.hpp:33–55, `DEV_ASSERT` of
test/ontarget/S32K148EVB/include/devassert.h:70–90, `ENABLE_INTERRUPTS` and `DISABLE_INTERRUPTS` of
test/ontarget/S32K148EVB/include/s32_core_cm4.h:95–109: what the preprocessor makes of their uses in the text of a function.

Simplified away: an expression, and a condition with its parentheses, is one token that stands for what it does; declarations, `for`, `switch` and jumps are
left out; whether arguments have types that can be used is left out; arguments of traces only look.
-/

namespace Uavcan.Macros

/-- What is printed: by the program itself or by traces (introspection.hpp:37–38). -/
inductive Out where
  | user (text : String)
  | trace (line : String)
  deriving DecidableEq

/-- How a piece of a program ends; a failed `assert` (introspection.hpp:51) and a failed `DEV_ASSERT` (devassert.h:80–85) stop it. -/
inductive End (σ : Type) where
  | ok (s : σ)
  | stopped
  /-- not at its end yet -/
  | more

/-- An expression that is evaluated for what it does. -/
abbrev Act (σ : Type) := σ → List Out × End σ

/-- A condition; it may change the state. -/
abbrev Cond (σ : Type) := σ → Bool × σ

/-- The use of a macro. -/
inductive Use (σ : Type) where
  /-- `LIBUAVCAN_ASSERT(c)` (introspection.hpp:49, 54), with so many commas outside of parentheses (as in `std::is_same<A, B>::value`) -/
  | assert (c : Cond σ) (commas : Nat)
  /-- `LIBUAVCAN_TRACE` (introspection.hpp:38, 43) with so many arguments; whether the message is a literal, and the line it makes -/
  | trace (args : Nat) (literal : Bool) (line : String)
  /-- `LIBUAVCAN_TRACEF` (introspection.hpp:37, 42) with so many arguments -/
  | tracef (args : Nat) (literal : Bool) (line : String)
  /-- `DEV_ASSERT(c)`, devassert.h:86, 89 -/
  | devAssert (c : Cond σ)
  /-- `ENABLE_INTERRUPTS()` or `DISABLE_INTERRUPTS()` (s32_core_cm4.h:97–109) and what the instruction does -/
  | interrupts (effect : σ → σ)

/-- A token of the text of a function. -/
inductive Tok (σ : Type) where
  | ifT (c : Cond σ)
  | elseT
  | whileT (c : Cond σ)
  | doT
  | lbrace
  | rbrace
  | semi
  | expr (e : Act σ)
  | use (u : Use σ)

/-- What is defined for the compiler, and whether it is one that has `__GNUC__` (s32_core_cm4.h:97, 105). -/
structure Config where
  /-- `LIBUAVCAN_INTROSPECTION_ENABLE_ASSERT`, introspection.hpp:47 -/
  assertOn : Bool
  /-- `LIBUAVCAN_INTROSPECTION_TRACE_ENABLE`, introspection.hpp:33 -/
  traceOn : Bool
  /-- `NDEBUG`, which turns `assert` off (introspection.hpp:51) -/
  ndebug : Bool
  /-- `DEV_ERROR_DETECT`, devassert.h:73 -/
  devDetect : Bool
  gnu : Bool

/-- `((void) 0)`, introspection.hpp:42–43, 54, devassert.h:89. -/
def nop {σ : Type} : Act σ := fun s => ([], .ok s)

/-- A condition is checked: `assert` (introspection.hpp:51), `DevAssert` (devassert.h:75–85). -/
def check {σ : Type} (c : Cond σ) : Act σ := fun s => match c s with
  | (true, s') => ([], .ok s')
  | (false, _) => ([], .stopped)

/-- `std::printf` of a line, introspection.hpp:37–38. -/
def print {σ : Type} (line : String) : Act σ := fun s => ([.trace line], .ok s)

/-- What the preprocessor makes of a use, if it can and the result is an expression or a statement:
- `LIBUAVCAN_ASSERT` takes one argument if it is turned on (introspection.hpp:49–52) and any number otherwise (54);
- `LIBUAVCAN_TRACE` and `LIBUAVCAN_TRACEF` paste their message between literals (37–38); `LIBUAVCAN_TRACEF` leaves a comma before the parenthesis if
  nothing follows the format (37);
- `DEV_ASSERT` is a call or nothing (devassert.h:86, 89);
- the macros for interrupts have a semicolon of their own with GCC (s32_core_cm4.h:98, 106). -/
def Use.expand {σ : Type} (cfg : Config) : Use σ → Option (List (Tok σ))
  | .assert c commas =>
    if cfg.assertOn then
      if commas = 0 then some [.lbrace, .expr (if cfg.ndebug then nop else check c), .semi, .rbrace] else none
    else some [.expr nop]
  | .trace args literal line =>
    if cfg.traceOn then if args = 2 ∧ literal = true then some [.expr (print line)] else none else some [.expr nop]
  | .tracef args literal line =>
    if cfg.traceOn then if 3 ≤ args ∧ literal = true then some [.expr (print line)] else none else some [.expr nop]
  | .devAssert c => some [.expr (if cfg.devDetect then check c else nop)]
  | .interrupts f => if cfg.gnu then some [.expr fun s => ([], .ok (f s)), .semi] else some [.expr fun s => ([], .ok (f s))]

/-- The text after preprocessing: introspection.hpp:33–55, devassert.h:70–90, s32_core_cm4.h:95–109. -/
def preprocess {σ : Type} (cfg : Config) : List (Tok σ) → Option (List (Tok σ))
  | [] => some []
  | .use u :: ts => do
    let b ← u.expand cfg
    let r ← preprocess cfg ts
    return b ++ r
  | t :: ts => do
    let r ← preprocess cfg ts
    return t :: r

end Uavcan.Macros
