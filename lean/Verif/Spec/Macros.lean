import Verif.Model.Macros

/-!
# Specification: the grammar of statements, what they do, and macros read as functions
-/

namespace Uavcan.Spec
open Macros

/-- Statements, with lists of statements among them. The use of a macro is read as the call of a function. -/
inductive Stmt (σ : Type) where
  | empty
  | expr (e : Act σ)
  | use (u : Use σ)
  | ite (c : Cond σ) (s t : Stmt σ)
  | ifs (c : Cond σ) (s : Stmt σ)
  | loop (c : Cond σ) (s : Stmt σ)
  | dos (s : Stmt σ) (c : Cond σ)
  | block (l : Stmt σ)
  | nil
  | cons (s l : Stmt σ)

/-- The grammar of statements and of what is between braces ([stmt.stmt] of the C++ standard): a text, what its beginning is, and the rest of the text. An
`else` belongs to the nearest `if`. -/
inductive Parses {σ : Type} : Bool → List (Tok σ) → Stmt σ → List (Tok σ) → Prop where
  | empty (ts) : Parses false (.semi :: ts) .empty ts
  | expr (e ts) : Parses false (.expr e :: .semi :: ts) (.expr e) ts
  | use (u ts) : Parses false (.use u :: .semi :: ts) (.use u) ts
  | ite {c ts s ts' t r} : Parses false ts s (.elseT :: ts') → Parses false ts' t r → Parses false (.ifT c :: ts) (.ite c s t) r
  | ifs {c ts s r} : Parses false ts s r → (∀ r', r ≠ .elseT :: r') → Parses false (.ifT c :: ts) (.ifs c s) r
  | loop {c ts s r} : Parses false ts s r → Parses false (.whileT c :: ts) (.loop c s) r
  | dos {ts s c r} : Parses false ts s (.whileT c :: .semi :: r) → Parses false (.doT :: ts) (.dos s c) r
  | block {ts l r} : Parses true ts l r → Parses false (.lbrace :: ts) (.block l) r
  | nil (ts) : Parses true (.rbrace :: ts) .nil ts
  | cons {ts s r l r'} : Parses false ts s r → Parses true r l r' → Parses true ts (.cons s l) r'

/-- The text of a function: statements between braces, and nothing after them. -/
def IsFunction {σ : Type} (ts : List (Tok σ)) (l : Stmt σ) : Prop := Parses false ts (.block l) []

/-- One after the other. -/
def andThen {σ : Type} (r : List Out × End σ) (f : Act σ) : List Out × End σ :=
  match r.2 with
  | .ok s => (r.1 ++ (f s).1, (f s).2)
  | e => (r.1, e)

/-- A loop, followed for `n` rounds. -/
def rounds {σ : Type} (c : Cond σ) (body : Act σ) : Nat → Act σ
  | 0, _ => ([], .more)
  | n + 1, s => if (c s).1 then andThen (body (c s).2) (rounds c body n) else ([], .ok (c s).2)

/-- What a statement does, if each loop is followed for `n` rounds, with macros that do `m`. -/
def does {σ : Type} (m : Use σ → Act σ) (n : Nat) : Stmt σ → Act σ
  | .empty => fun s => ([], .ok s)
  | .expr e => e
  | .use u => m u
  | .ite c s t => fun x => if (c x).1 then does m n s (c x).2 else does m n t (c x).2
  | .ifs c s => fun x => if (c x).1 then does m n s (c x).2 else ([], .ok (c x).2)
  | .loop c s => rounds c (does m n s) n
  | .dos s c => fun x => andThen (does m n s x) (rounds c (does m n s) n)
  | .block l => does m n l
  | .nil => fun s => ([], .ok s)
  | .cons s l => fun x => andThen (does m n s x) (does m n l)

/-- What the macros are for: an assertion that is turned on stops the program if the condition is false, a trace that is turned on prints a line. -/
def meant {σ : Type} (cfg : Config) : Use σ → Act σ
  | .assert c _ => fun s => if cfg.assertOn = true ∧ cfg.ndebug = false then (if (c s).1 then ([], .ok (c s).2) else ([], .stopped)) else ([], .ok s)
  | .trace _ _ line => fun s => (if cfg.traceOn then [.trace line] else [], .ok s)
  | .tracef _ _ line => fun s => (if cfg.traceOn then [.trace line] else [], .ok s)
  | .devAssert c => fun s => if cfg.devDetect then (if (c s).1 then ([], .ok (c s).2) else ([], .stopped)) else ([], .ok s)
  | .interrupts f => fun s => ([], .ok (f s))

/-- All uses of macros in a statement. -/
def AllUses {σ : Type} (P : Use σ → Prop) : Stmt σ → Prop
  | .empty => True
  | .expr _ => True
  | .use u => P u
  | .ite _ s t => AllUses P s ∧ AllUses P t
  | .ifs _ s => AllUses P s
  | .loop _ s => AllUses P s
  | .dos s _ => AllUses P s
  | .block l => AllUses P l
  | .nil => True
  | .cons s l => AllUses P s ∧ AllUses P l

/-- The macro has arguments it can do with. -/
def ArgsFit {σ : Type} (cfg : Config) : Use σ → Prop
  | .assert _ commas => cfg.assertOn = true → commas = 0
  | .trace args literal _ => cfg.traceOn = true → args = 2 ∧ literal = true
  | .tracef args literal _ => cfg.traceOn = true → 3 ≤ args ∧ literal = true
  | .devAssert _ => True
  | .interrupts _ => True

/-- The macro is a whole statement, so that a semicolon after it is another. -/
def Whole {σ : Type} (cfg : Config) : Use σ → Prop
  | .assert _ _ => cfg.assertOn = true
  | .interrupts _ => cfg.gnu = true
  | _ => False

/-- The last thing of a statement is the use of such a macro. -/
def EndsWhole {σ : Type} (cfg : Config) : Stmt σ → Prop
  | .use u => Whole cfg u
  | .ite _ _ t => EndsWhole cfg t
  | .ifs _ s => EndsWhole cfg s
  | .loop _ s => EndsWhole cfg s
  | _ => False

/-- No such macro stands just before an `else`, or just before the `while` at the end of a `do`. -/
def WellPlaced {σ : Type} (cfg : Config) : Stmt σ → Prop
  | .empty => True
  | .expr _ => True
  | .use _ => True
  | .ite _ s t => WellPlaced cfg s ∧ ¬ EndsWhole cfg s ∧ WellPlaced cfg t
  | .ifs _ s => WellPlaced cfg s
  | .loop _ s => WellPlaced cfg s
  | .dos s _ => WellPlaced cfg s ∧ ¬ EndsWhole cfg s
  | .block l => WellPlaced cfg l
  | .nil => True
  | .cons s l => WellPlaced cfg s ∧ WellPlaced cfg l

/-- A condition that only looks. -/
def Pure {σ : Type} (c : Cond σ) : Prop := ∀ s, (c s).2 = s

/-- The asserted condition only looks. -/
def PureUse {σ : Type} : Use σ → Prop
  | .assert c _ => Pure c
  | .devAssert c => Pure c
  | _ => True

/-- What the program itself printed. -/
def own (o : List Out) : List Out := o.filter fun x => match x with | .user _ => true | .trace _ => false

end Uavcan.Spec
