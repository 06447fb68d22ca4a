import Verif.Spec.CoreClock

/-!
# Specification of the serial line

Asynchronous characters on a line, how a terminal reads them, and what registers of the chip mean for it (reference manual; the
positions of the fields are those of `include/S32K148.h`).
-/

namespace Uavcan.Serial.Spec

open Uavcan.CoreClock.Spec

abbrev Byte := BitVec 8

/-! ## The line

Time is counted in ticks, as short as one likes. -/

/-- A character: start bit, eight data bits beginning with the least significant, one stop bit. -/
def frame (b : Byte) : List Bool := false :: (List.range 8).map b.getLsbD ++ [true]

/-- Levels on the line, tick by tick: each character after a gap (in ticks), with `S` ticks for a bit. -/
def line (S : Nat) : List (Nat × Byte) → List Bool
  | [] => []
  | (gap, b) :: rest => List.replicate gap true ++ (frame b).flatMap (List.replicate S) ++ line S rest

/-- The level at a time after the beginning of the list; the line is idle (high) at the end. -/
def level (l : List Bool) (t : Nat) : Bool := l.getD t true

/-- A receiver with `R` ticks for a bit that has seen the falling edge `d` ticks after the beginning of the list reads each bit in
the middle. `none`: this is not a character. -/
def character (R d : Nat) (l : List Bool) : Option Byte :=
  let bit := fun k => level l (d + R / 2 + k * R)
  if bit 0 = false ∧ bit 9 = true then
    some (BitVec.ofNat 8 ((List.range 8).foldr (fun k n => 2 * n + (bit (k + 1)).toNat) 0))
  else none

/-- Characters from the `n`th on: the receiver waits for a falling edge, reads a character, and goes on from the middle of the stop
bit. `d n` is by how much it is late in seeing the `n`th edge. -/
def characters (R : Nat) (d : Nat → Nat) : (fuel n : Nat) → List Bool → List (Option Byte)
  | 0, _, _ => []
  | fuel + 1, n, l =>
    match l.dropWhile id with
    | [] => []
    | x :: l => character R (d n) (x :: l) :: characters R d fuel (n + 1) ((x :: l).drop (d n + R / 2 + 9 * R))

/-- What the receiver reads. -/
def read (R : Nat) (d : Nat → Nat) (l : List Bool) : List (Option Byte) := characters R d l.length 0 l

/-- A receiver with `R` ticks for a bit reads exactly the bytes sent with `S` ticks for a bit, whatever the gaps, if it sees each
falling edge at most a sixteenth of a bit late. -/
def Hears (S R : Nat) : Prop :=
  ∀ d : Nat → Nat, (∀ n, 16 * d n ≤ R) → ∀ cs : List (Nat × Byte), read R d (line S cs) = cs.map fun c => some c.2

/-- A chip whose bits take `div` periods of a clock of `clk` Hz and a terminal with `rate` bits per second understand each other.
A tick is one part in `2 · rate · clk · m` of a second. -/
def Understand (rate clk div : Nat) : Prop :=
  ∀ m, 0 < m → Hears (div * (2 * rate * m)) (clk * (2 * m)) ∧ Hears (clk * (2 * m)) (div * (2 * rate * m))

/-! ## Registers -/

/-- Eight data bits, no parity, one stop bit; transmitter and receiver on, connected to the pins, not inverted, not in standby, not
sending breaks. -/
def EightN1 (BAUD CTRL : BitVec 32) : Prop :=
  field CTRL 19 1 = 1 ∧ field CTRL 18 1 = 1 ∧ field CTRL 1 1 = 0 ∧ field CTRL 4 1 = 0 ∧ field CTRL 11 1 = 0 ∧ field CTRL 7 1 = 0 ∧
  field CTRL 28 1 = 0 ∧ field CTRL 16 2 = 0 ∧ field BAUD 13 1 = 0 ∧ field BAUD 29 1 = 0 ∧ field BAUD 30 2 = 0

/-- A clock divided as DIV2 of its register says: not at all (0: off), or by a power of two. -/
def divided (f div : Nat) : Option Nat := if div = 0 then none else some (f / 2 ^ (div - 1))

/-- The slow internal clock, divided (SIRCDIV2_CLK). -/
def sircdiv2 (sirccfg sircdiv : BitVec 32) : Option Nat :=
  divided (if field sirccfg 0 1 = 1 then 8000000 else 2000000) (field sircdiv 8 3)

/-- The clock PCS selects. -/
def selected (sosc sirc firc spll : Option Nat) (pcc : BitVec 32) : Option Nat :=
  match field pcc 24 3 with
  | 1 => sosc
  | 2 => sirc
  | 3 => firc
  | 6 => spll
  | _ => none

/-- A terminal at `rate` bits per second, 8N1, at PTC6 (TX, alternative 2) and PTC7 (RX, alternative 2) and the program understand
each other. -/
def Connected (PCR6 PCR7 pcc BAUD CTRL : BitVec 32) (clock : Option Nat) (rate : Nat) : Prop :=
  field PCR6 8 3 = 2 ∧ field PCR7 8 3 = 2 ∧ field pcc 30 1 = 1 ∧ EightN1 BAUD CTRL ∧
  ∃ clk, clock = some clk ∧ 7 ≤ field BAUD 24 5 ∧ 0 < field BAUD 0 13 ∧
    Understand rate clk ((field BAUD 24 5 + 1) * field BAUD 0 13)

end Uavcan.Serial.Spec
