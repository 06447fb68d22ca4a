import Verif.Core.Outcome

/-!
# Model of the bit copy functions

`libuavcan/include/libuavcan/platform/memory.hpp`, lines 319–399. Buffers are lists of bytes, a null pointer is
`none`; indexing outside a buffer is `UB.outOfBounds`. `std::size_t` has 64 bits: wrapping of the offset
is the separate outcome `UB.sizeWrap` (which a theorem shows can only happen after an access beyond byte
2^61). Source and destination do not overlap.
-/

namespace Uavcan.CopyBits

abbrev Byte := BitVec 8

/-- `a[i]` as a value. -/
def rd (a : List Byte) (i : Nat) : Outcome Byte :=
  if h : i < a.length then .ok a[i] else .ub .outOfBounds

/-- `a[i] = v`. -/
def wr (a : List Byte) (i : Nat) (v : Byte) : Outcome (List Byte) :=
  if i < a.length then .ok (a.set i v) else .ub .outOfBounds

/-- `static_cast<std::uint8_t>(b << n)`: the byte is promoted to `int`, shifted, and cut off. -/
def shl (b : Byte) (n : Nat) : Byte := ((b.setWidth 32) <<< n).setWidth 8

/-- `static_cast<std::uint8_t>(b >> n)`. -/
def shr (b : Byte) (n : Nat) : Byte := ((b.setWidth 32) >>> n).setWidth 8

/-- The loop of `copyBitsUnalignedToAligned`, 331–350. -/
def uaLoop (src : List Byte) (local_offset length_bits offset_bits bits_copied : Nat) (dst : List Byte) :
    Outcome (Nat × List Byte) := do
  let current_byte := offset_bits / 8                                          -- 333
  let bits_from_src_byte := 8 - local_offset                                   -- 334
  let bits_copied := bits_copied + min length_bits bits_from_src_byte          -- 335
  let d ← rd dst current_byte
  let dst ← wr dst current_byte (d &&& shl 0xFF bits_from_src_byte)            -- 336
  let s ← rd src current_byte
  let d ← rd dst current_byte
  let dst ← wr dst current_byte (d ||| shr s local_offset)                     -- 337
  if 2 ^ 64 ≤ offset_bits + 8 then .ub .sizeWrap                               -- 338
  else if offset_bits + 8 < length_bits then                                   -- 339
    let s ← rd src ((offset_bits + 8) / 8)
    let dst ← wr dst ((offset_bits + 8) / 8) (shl s bits_from_src_byte)        -- 341–342
    uaLoop src local_offset length_bits (offset_bits + 8) (bits_copied + local_offset) dst -- 343
  else
    return (bits_copied, dst)                                                  -- 345–349, 351
termination_by length_bits - offset_bits

/-- `copyBitsUnalignedToAligned`, 319–352. -/
def copyBitsUnalignedToAligned (src : Option (List Byte)) (src_offset_bits : Nat) (dst : Option (List Byte))
    (length_bits : Nat) : Outcome (Nat × Option (List Byte)) :=
  match src, dst with
  | some s, some d =>
    if length_bits = 0 then .ok (0, some d)
    else do
      let (n, d') ← uaLoop s (src_offset_bits % 8) length_bits src_offset_bits 0 d
      return (n, some d')
  | _, _ => .ok (0, dst)

/-- The loop of `copyBitsAlignedToUnaligned`, 378–396. -/
def auLoop (src : List Byte) (local_offset length_bits offset_bits bits_copied : Nat) (dst : List Byte) :
    Outcome (Nat × List Byte) := do
  let current_byte := offset_bits / 8                                          -- 380
  let bits_from_src_byte := 8 - local_offset                                   -- 381
  let d ← rd dst current_byte
  let dst ← wr dst current_byte (d &&& shr 0xFF bits_from_src_byte)            -- 382
  let s ← rd src current_byte
  let d ← rd dst current_byte
  let dst ← wr dst current_byte (d ||| shl s local_offset)                     -- 383
  if 2 ^ 64 ≤ offset_bits + 8 then .ub .sizeWrap                               -- 384
  else
    let bits_copied := bits_copied + min length_bits bits_from_src_byte        -- 385
    if offset_bits + 8 < length_bits then                                      -- 386
      let s ← rd src ((offset_bits + 8) / 8)
      let d ← rd dst current_byte
      let dst ← wr dst current_byte (d ||| shr s bits_from_src_byte)           -- 388
      auLoop src local_offset length_bits (offset_bits + 8) (bits_copied + local_offset) dst -- 389
    else
      return (bits_copied, dst)                                                -- 391–395, 398
termination_by length_bits - offset_bits

/-- `copyBitsAlignedToUnaligned`, 366–399. -/
def copyBitsAlignedToUnaligned (src : Option (List Byte)) (dst : Option (List Byte)) (dst_offset_bits : Nat)
    (length_bits : Nat) : Outcome (Nat × Option (List Byte)) :=
  match src, dst with
  | some s, some d =>
    if length_bits = 0 then .ok (0, some d)
    else do
      let (n, d') ← auLoop s (dst_offset_bits % 8) length_bits dst_offset_bits 0 d
      return (n, some d')
  | _, _ => .ok (0, dst)

end Uavcan.CopyBits
