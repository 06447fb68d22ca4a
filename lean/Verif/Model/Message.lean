import Verif.Model.CopyBits

/-!
# Packing and unpacking messages

A program that serialises messages with the bit copies of `libuavcan/include/libuavcan/platform/memory.hpp` (319–399), the
purpose they were made for. The program itself is not in `/repo` (the code generator does not generate any serialisation yet, see
`libuavcan/include/libuavcan/templates`): it is the simplest one possible, a call of
`copyBitsAlignedToUnaligned` for every field to pack and a call of `copyBitsUnalignedToAligned` for every field to unpack.
-/

namespace Uavcan.CopyBits

/-- How a caller names the place of a field: by its offset from the start of the buffer, or by a pointer to the byte it starts in and an
offset below 8. Both are allowed by the documentation (memory.hpp 310–312, 358–360). -/
inductive Style where
  | absolute
  | advancing

/-- How far the pointer passed as buffer is advanced (memory.hpp 319, 367). -/
def Style.base : Style → Nat → Nat
  | .absolute, _ => 0
  | .advancing, p => p / 8

/-- The offset passed (memory.hpp 320, 368). -/
def Style.offset : Style → Nat → Nat
  | .absolute, p => p
  | .advancing, p => p % 8

/-- `copyBitsAlignedToUnaligned(field, buf + base, offset, w)` (memory.hpp 366–369): the first `w` bits of `field` to position `p`. -/
def put (st : Style) (w : Nat) (field : List Byte) (p : Nat) (buf : List Byte) : Outcome (List Byte) := do
  let (_, b) ← copyBitsAlignedToUnaligned (some field) (some (buf.drop (st.base p))) (st.offset p) w
  return buf.take (st.base p) ++ b.getD []

/-- `copyBitsUnalignedToAligned(buf + base, offset, out, w)` (memory.hpp 319–322): the `w` bits from position `p` to `out`. -/
def fetch (st : Style) (w : Nat) (buf : List Byte) (p : Nat) (out : List Byte) : Outcome (List Byte) := do
  let (_, o) ← copyBitsUnalignedToAligned (some (buf.drop (st.base p))) (st.offset p) (some out) w
  return o.getD []

/-- The fields (width and contents) one after the other, from position `p` on. Calls of memory.hpp 366. -/
def pack (st : Style) : List (Nat × List Byte) → Nat → List Byte → Outcome (List Byte)
  | [], _, buf => .ok buf
  | (w, field) :: fields, p, buf => do
    let buf ← put st w field p buf
    pack st fields (p + w) buf

/-- The other way round, into the given variables (width and former contents). Calls of memory.hpp 319. -/
def unpack (st : Style) (buf : List Byte) : List (Nat × List Byte) → Nat → Outcome (List (Nat × List Byte))
  | [], _ => .ok []
  | (w, out) :: outs, p => do
    let o ← fetch st w buf p out
    let os ← unpack st buf outs (p + w)
    return (w, o) :: os

end Uavcan.CopyBits
