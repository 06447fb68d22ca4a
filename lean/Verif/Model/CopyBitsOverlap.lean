import Verif.Model.CopyBits

/-!
# The bit copy functions on overlapping buffers

`libuavcan/include/libuavcan/platform/memory.hpp`, lines 319–399 once more. Neither function declares its
pointers `restrict` or says that the buffers must not overlap. `Model/CopyBits.lean` has two separate
buffers; here both pointers point into one array of `n` bytes, `src` at index `sp` and `dst` at index `dp`, and every read
and write goes to that array in the order of the statements. Accesses outside the array are undefined.
-/

namespace Uavcan.CopyBits

/-- The contents of the array. -/
abbrev Arr := Nat → Byte

/-- `a[i]` as a value, in an array of `n` bytes (memory.hpp:336, 337, 342, 382, 383, 388). -/
def rdA (n : Nat) (a : Arr) (i : Nat) : Outcome Byte := if i < n then .ok (a i) else .ub .outOfBounds

/-- `a[i] = v`, in an array of `n` bytes (memory.hpp:336, 337, 342, 382, 383, 388). -/
def wrA (n : Nat) (a : Arr) (i : Nat) (v : Byte) : Outcome Arr :=
  if i < n then .ok (fun x => if x = i then v else a x) else .ub .outOfBounds

/-- The loop of `copyBitsUnalignedToAligned`, memory.hpp:331–350, on one array. -/
def uaLoopA (n sp dp local_offset length_bits offset_bits bits_copied : Nat) (a : Arr) : Outcome (Nat × Arr) := do
  let current_byte := offset_bits / 8                                          -- 333
  let bits_from_src_byte := 8 - local_offset                                   -- 334
  let bits_copied := bits_copied + min length_bits bits_from_src_byte          -- 335
  let d ← rdA n a (dp + current_byte)
  let a ← wrA n a (dp + current_byte) (d &&& shl 0xFF bits_from_src_byte)      -- 336
  let s ← rdA n a (sp + current_byte)
  let d ← rdA n a (dp + current_byte)
  let a ← wrA n a (dp + current_byte) (d ||| shr s local_offset)               -- 337
  if 2 ^ 64 ≤ offset_bits + 8 then .ub .sizeWrap                               -- 338
  else if offset_bits + 8 < length_bits then                                   -- 339
    let s ← rdA n a (sp + (offset_bits + 8) / 8)
    let a ← wrA n a (dp + (offset_bits + 8) / 8) (shl s bits_from_src_byte)    -- 341–342
    uaLoopA n sp dp local_offset length_bits (offset_bits + 8) (bits_copied + local_offset) a -- 343
  else
    return (bits_copied, a)                                                    -- 345–349, 351
termination_by length_bits - offset_bits

/-- `copyBitsUnalignedToAligned(&a[sp], src_offset_bits, &a[dp], length_bits)`, memory.hpp:319–352 (the
pointers are not null). -/
def copyBitsUnalignedToAlignedA (n sp dp src_offset_bits length_bits : Nat) (a : Arr) : Outcome (Nat × Arr) :=
  if length_bits = 0 then .ok (0, a)                                           -- 324–327
  else uaLoopA n sp dp (src_offset_bits % 8) length_bits src_offset_bits 0 a

/-- The loop of `copyBitsAlignedToUnaligned`, memory.hpp:378–396, on one array. -/
def auLoopA (n sp dp local_offset length_bits offset_bits bits_copied : Nat) (a : Arr) : Outcome (Nat × Arr) := do
  let current_byte := offset_bits / 8                                          -- 380
  let bits_from_src_byte := 8 - local_offset                                   -- 381
  let d ← rdA n a (dp + current_byte)
  let a ← wrA n a (dp + current_byte) (d &&& shr 0xFF bits_from_src_byte)      -- 382
  let s ← rdA n a (sp + current_byte)
  let d ← rdA n a (dp + current_byte)
  let a ← wrA n a (dp + current_byte) (d ||| shl s local_offset)               -- 383
  if 2 ^ 64 ≤ offset_bits + 8 then .ub .sizeWrap                               -- 384
  else
    let bits_copied := bits_copied + min length_bits bits_from_src_byte        -- 385
    if offset_bits + 8 < length_bits then                                      -- 386
      let s ← rdA n a (sp + (offset_bits + 8) / 8)
      let d ← rdA n a (dp + current_byte)
      let a ← wrA n a (dp + current_byte) (d ||| shr s bits_from_src_byte)     -- 388
      auLoopA n sp dp local_offset length_bits (offset_bits + 8) (bits_copied + local_offset) a -- 389
    else
      return (bits_copied, a)                                                  -- 391–395, 398
termination_by length_bits - offset_bits

/-- `copyBitsAlignedToUnaligned(&a[sp], &a[dp], dst_offset_bits, length_bits)`, memory.hpp:366–399 (the
pointers are not null). -/
def copyBitsAlignedToUnalignedA (n sp dp dst_offset_bits length_bits : Nat) (a : Arr) : Outcome (Nat × Arr) :=
  if length_bits = 0 then .ok (0, a)                                           -- 371–374
  else auLoopA n sp dp (dst_offset_bits % 8) length_bits dst_offset_bits 0 a

end Uavcan.CopyBits
