/-!
# Specification of the C library's output streams (newlib-nano)

The on-target tests print through the C library (googletest's `printf` and `fflush`), which hands bytes to the program's own
`_write`. This is how newlib's nano variant does that; the build asks for it with `--specs=nano.specs`
(test/cmake/compiler_flag_sets/cortex-m4-fpv4-sp-d16-nosys.cmake:85), and with `--specs=nosys.specs` (86) `_fstat` fails, so that
standard output is fully buffered, with a buffer of `BUFSIZ` (1024) bytes. The buffer's size is a parameter here. Not in /repo:
part of the trusted base.
-/

namespace Uavcan.Spec.Stdio

/-- `_write`: bytes in, a number out, or no return (`none`). -/
abbrev Device (σ : Type) := List (BitVec 8) → σ → Option (Int × σ)

/-- A stream: the bytes in its buffer, and the world behind the device. -/
structure File (σ : Type) where
  buf : List (BitVec 8)
  world : σ

variable {σ : Type}

/-- The loop of `__sflush_r`: the device is asked again until it has taken everything; a result of 0 or less is an error. The
result says whether all went well. -/
def writeOut (w : Device σ) (p : List (BitVec 8)) (s : σ) : Option (Bool × σ) :=
  if h : p = [] then some (true, s)
  else
    match w p s with
    | none => none
    | some (t, s) => if ht : t ≤ 0 then some (false, s) else writeOut w (p.drop t.toNat) s
termination_by p.length
decreasing_by
  have : p.length ≠ 0 := by simpa using h
  rw [List.length_drop]
  omega

/-- `fflush`: the buffer is empty afterwards, also after an error. -/
def flush (w : Device σ) (f : File σ) : Option (Bool × File σ) :=
  match writeOut w f.buf f.world with
  | none => none
  | some (ok, s) => some (ok, ⟨[], s⟩)

/-- `__sputc_r` and `__swbuf_r`: a character goes into the buffer; if there is no room the buffer is flushed first, and after an
error the character is dropped. -/
def putc (w : Device σ) (B : Nat) (c : BitVec 8) (f : File σ) : Option (Bool × File σ) :=
  if f.buf.length < B then some (true, { f with buf := f.buf ++ [c] })
  else
    match flush w f with
    | none => none
    | some (true, f) => some (true, { f with buf := f.buf ++ [c] })
    | some (false, f) => some (false, f)

/-- `__sfputs_r` and the loop of `fwrite`: character by character, up to the first error. -/
def print (w : Device σ) (B : Nat) : List (BitVec 8) → File σ → Option (Bool × File σ)
  | [], f => some (true, f)
  | c :: cs, f =>
    match putc w B c f with
    | none => none
    | some (true, f) => print w B cs f
    | some (false, f) => some (false, f)

/-- What a program does with a stream. -/
inductive Op where
  | print (text : List (BitVec 8))
  | flush

/-- One call: its result and the stream after it. -/
def step (w : Device σ) (B : Nat) : Op → File σ → Option (Bool × File σ)
  | .print t, f => print w B t f
  | .flush, f => flush w f

/-- A whole program; it does not look at the results of its calls (googletest does not). -/
def run (w : Device σ) (B : Nat) : List Op → File σ → Option (List Bool × File σ)
  | [], f => some ([], f)
  | o :: os, f =>
    match step w B o f with
    | none => none
    | some (r, f) =>
      match run w B os f with
      | none => none
      | some (rs, f) => some (r :: rs, f)

/-- Everything that the program prints. -/
def printed : List Op → List (BitVec 8)
  | [] => []
  | .print t :: os => t ++ printed os
  | .flush :: os => printed os

/-- No text overflows the buffer, in which there are `n` bytes already. -/
def Fits (B : Nat) : Nat → List Op → Prop
  | _, [] => True
  | n, .print t :: os => n + t.length ≤ B ∧ Fits B (n + t.length) os
  | _, .flush :: os => Fits B 0 os

end Uavcan.Spec.Stdio
