import Verif.Model.Message

/-!
# Bit copies made from calls that work

C30, C31 and C119 say which calls of the bit copies (`libuavcan/include/libuavcan/platform/memory.hpp` 319–399) work. This is a program that makes only such calls: it moves
one bit at a time. Like `Model/Message` it is not in `/repo`; it is what a user can write on top of the library.
-/

namespace Uavcan.CopyBits

/-- Bit `s` of `src` to bit `d` of `dst`: fetch the bit, fetch the rest of the byte it goes to (calls of memory.hpp 319), replace the bit, and put the
rest of the byte back (call of memory.hpp 366). -/
def moveBit (src : List Byte) (s : Nat) (d : Nat) (dst : List Byte) : Outcome (List Byte) := do
  let t ← fetch .advancing 1 src s [0]
  let u ← fetch .advancing (8 - d % 8) dst d [0]
  put .advancing (8 - d % 8) [(u.getD 0 0 &&& 0xFE) ||| (t.getD 0 0 &&& 1)] d dst

/-- `len` bits, one after the other. Calls of memory.hpp 319 and 366. -/
def moveBits (src : List Byte) : (s d len : Nat) → List Byte → Outcome (List Byte)
  | _, _, 0, dst => .ok dst
  | s, d, len + 1, dst => do
    let dst ← moveBit src s d dst
    moveBits src (s + 1) (d + 1) len dst

/-- Packing messages with it, as `pack`. Calls of memory.hpp 319 and 366. -/
def packMoving : List (Nat × List Byte) → Nat → List Byte → Outcome (List Byte)
  | [], _, buf => .ok buf
  | (w, field) :: fields, p, buf => do
    let buf ← moveBits field 0 p w buf
    packMoving fields (p + w) buf

/-- Unpacking messages with it, as `unpack`. Calls of memory.hpp 319 and 366. -/
def unpackMoving (buf : List Byte) : List (Nat × List Byte) → Nat → Outcome (List (Nat × List Byte))
  | [], _ => .ok []
  | (w, out) :: outs, p => do
    let o ← moveBits buf p 0 w out
    let os ← unpackMoving buf outs (p + w)
    return (w, o) :: os

end Uavcan.CopyBits
