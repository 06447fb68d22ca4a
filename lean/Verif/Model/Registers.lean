/-!
# Model of the register header

`test/ontarget/S32K148EVB/include/S32K148.h`: the structures that describe the registers of the peripherals, the bit masks,
shifts and widths of their fields with the macros that use them, and the addresses of the peripherals. The tables are the
whole header but for the interrupt numbers, the lists of instances and the macros `_COUNT`.

Every field macro of the header has the form `(((uintN_t)(((uintN_t)(x)) << F_SHIFT)) & F_MASK)`, with `N` 8, 16 or 32. The
layout of structures is that of the ABI of ARM: members follow each other, each at a multiple of its alignment.
-/

namespace Uavcan.Registers

/-- The macros `F_MASK`, `F_SHIFT`, `F_WIDTH` and `F(x)` of a field `F`, e.g. S32K148.h:1564–1568: mask, shift, width, and the
`N` of `uintN_t` in `F(x)`. `elem` is the number of the element the field is in, for `S32_NVIC_IP_PRIn`, where every element
of the array has a field of its own; otherwise 0. -/
structure Field where
  name : String
  mask : Nat
  shift : Nat
  width : Nat
  cast : Nat
  elem : Nat
  deriving DecidableEq, Repr

/-- A member of a structure: a register or an array of registers (of `bytes` bytes each), or a `struct` or `union` in it, or an
array of these; `count` is the number of elements of arrays;
`doc` is the offset from the comment, `step` the distance between elements from the comment. Members named `RESERVED` are
padding. E.g. S32K148.h:371–406. -/
inductive Member where
  | reg (bytes : Nat) (name : String) (count : Option Nat) (doc step : Option Nat) (fields : List Field)
  | group (isUnion : Bool) (name : String) (count : Option Nat) (doc step : Option Nat) (members : List Member)

/-- `F(x)`: e.g. S32K148.h:1567–1568. -/
def Field.put (f : Field) (x : BitVec 32) : BitVec 32 :=
  (x.setWidth f.cast <<< f.shift).setWidth 32 &&& BitVec.ofNat 32 f.mask

/-- `(r & F_MASK) >> F_SHIFT`, the way a field is read, e.g. LPUART.c:75. -/
def Field.get (f : Field) (r : BitVec 32) : BitVec 32 := (r &&& BitVec.ofNat 32 f.mask) >>> f.shift

/-- `(r & ~F_MASK) | F(x)`, the way a field is written, e.g. system_S32K148.c:200–203. -/
def Field.set (f : Field) (x r : BitVec 32) : BitVec 32 := (r &&& ~~~BitVec.ofNat 32 f.mask) ||| f.put x

mutual
/-- Alignment of a member (registers are of type `uint8_t`, `uint16_t` or `uint32_t`); e.g. S32K148.h:371–406. -/
def Member.align : Member → Nat
  | .reg bytes _ _ _ _ _ => bytes
  | .group _ _ _ _ _ ms => alignAll ms
/-- Alignment of a structure with these members, e.g. S32K148.h:371–406. -/
def alignAll : List Member → Nat
  | [] => 1
  | m :: ms => max m.align (alignAll ms)
end

/-- Next multiple of `a`; for the layout of structures, e.g. S32K148.h:371–406. -/
def roundUp (a n : Nat) : Nat := (n + a - 1) / a * a

mutual
/-- `sizeof` a member (all elements), e.g. S32K148.h:371–406. -/
def Member.size : Member → Nat
  | .reg bytes _ count _ _ _ => bytes * count.getD 1
  | .group isUnion _ count _ _ ms => count.getD 1 * roundUp (alignAll ms) (sizeAll isUnion ms 0)
/-- End of the last member (`struct`) or of the longest one (`union`), if the next member starts at `off` or later. -/
def sizeAll (isUnion : Bool) : List Member → Nat → Nat
  | [], off => off
  | m :: ms, off =>
    if isUnion then max m.size (sizeAll isUnion ms off)
    else sizeAll isUnion ms (roundUp m.align off + m.size)
end

/-- A register or structure, or an array of them, and where it is; `stride` is the distance between elements, in the array of
registers or else in the innermost array of structures around it. -/
structure Placed where
  name : String
  offset : Nat
  stride : Nat
  bytes : Nat
  count : Option Nat
  doc : Option Nat
  step : Option Nat
  fields : List Field

mutual
/-- The registers of a member at `off`, in an array with distance `stride`; those in arrays of structures once, in the first
element. -/
def Member.placed (off stride : Nat) : Member → List Placed
  | .reg bytes name count doc step fields =>
    [⟨name, off, if count.isSome then bytes else stride, bytes, count, doc, step, fields⟩]
  | .group isUnion name count doc step ms =>
    let size := roundUp (alignAll ms) (sizeAll isUnion ms 0)
    let stride' := if count.isSome then size else stride
    ⟨name, off, stride', size, count, doc, step, []⟩ :: placedAll isUnion off stride' ms off
/-- The registers of these members, in a structure at `base`, the next one at `off` or later. -/
def placedAll (isUnion : Bool) (base stride : Nat) : List Member → Nat → List Placed
  | [], _ => []
  | m :: ms, off =>
    let at_ := if isUnion then base else roundUp m.align off
    m.placed at_ stride ++ placedAll isUnion base stride ms (at_ + m.size)
end

/-- The registers of a peripheral, e.g. S32K148.h:371–406. -/
def registers (ms : List Member) : List Placed := placedAll false 0 0 ms 0

/-- `sizeof` the type of a peripheral, e.g. S32K148.h:371–406. -/
def sizeOf' (ms : List Member) : Nat := roundUp (alignAll ms) (sizeAll false ms 0)

/-- `ADC_Type` and the masks of its registers, S32K148.h:371–406 and 450–684. -/
def rADC : List Member := [
  .reg 4 "SC1" (some 16) (some 0x0) (some 0x4) [
      ⟨"ADCH", 0x3F, 0, 6, 32, 0⟩, ⟨"AIEN", 0x40, 6, 1, 32, 0⟩, ⟨"COCO", 0x80, 7, 1, 32, 0⟩],
  .reg 4 "CFG1" none (some 0x40) none [
      ⟨"ADICLK", 0x3, 0, 2, 32, 0⟩, ⟨"MODE", 0xC, 2, 2, 32, 0⟩, ⟨"ADIV", 0x60, 5, 2, 32, 0⟩,
      ⟨"CLRLTRG", 0x100, 8, 1, 32, 0⟩],
  .reg 4 "CFG2" none (some 0x44) none [
      ⟨"SMPLTS", 0xFF, 0, 8, 32, 0⟩],
  .reg 4 "R" (some 16) (some 0x48) (some 0x4) [
      ⟨"D", 0xFFF, 0, 12, 32, 0⟩],
  .reg 4 "CV" (some 2) (some 0x88) (some 0x4) [
      ⟨"CV", 0xFFFF, 0, 16, 32, 0⟩],
  .reg 4 "SC2" none (some 0x90) none [
      ⟨"REFSEL", 0x3, 0, 2, 32, 0⟩, ⟨"DMAEN", 0x4, 2, 1, 32, 0⟩, ⟨"ACREN", 0x8, 3, 1, 32, 0⟩,
      ⟨"ACFGT", 0x10, 4, 1, 32, 0⟩, ⟨"ACFE", 0x20, 5, 1, 32, 0⟩, ⟨"ADTRG", 0x40, 6, 1, 32, 0⟩,
      ⟨"ADACT", 0x80, 7, 1, 32, 0⟩, ⟨"TRGPRNUM", 0x6000, 13, 2, 32, 0⟩, ⟨"TRGSTLAT", 0xF0000, 16, 4, 32, 0⟩,
      ⟨"TRGSTERR", 0xF000000, 24, 4, 32, 0⟩],
  .reg 4 "SC3" none (some 0x94) none [
      ⟨"AVGS", 0x3, 0, 2, 32, 0⟩, ⟨"AVGE", 0x4, 2, 1, 32, 0⟩, ⟨"ADCO", 0x8, 3, 1, 32, 0⟩, ⟨"CAL", 0x80, 7, 1, 32, 0⟩],
  .reg 4 "BASE_OFS" none (some 0x98) none [
      ⟨"BA_OFS", 0xFF, 0, 8, 32, 0⟩],
  .reg 4 "OFS" none (some 0x9C) none [
      ⟨"OFS", 0xFFFF, 0, 16, 32, 0⟩],
  .reg 4 "USR_OFS" none (some 0xA0) none [
      ⟨"USR_OFS", 0xFF, 0, 8, 32, 0⟩],
  .reg 4 "XOFS" none (some 0xA4) none [
      ⟨"XOFS", 0x3F, 0, 6, 32, 0⟩],
  .reg 4 "YOFS" none (some 0xA8) none [
      ⟨"YOFS", 0xFF, 0, 8, 32, 0⟩],
  .reg 4 "G" none (some 0xAC) none [
      ⟨"G", 0x7FF, 0, 11, 32, 0⟩],
  .reg 4 "UG" none (some 0xB0) none [
      ⟨"UG", 0x3FF, 0, 10, 32, 0⟩],
  .reg 4 "CLPS" none (some 0xB4) none [
      ⟨"CLPS", 0x7F, 0, 7, 32, 0⟩],
  .reg 4 "CLP3" none (some 0xB8) none [
      ⟨"CLP3", 0x3FF, 0, 10, 32, 0⟩],
  .reg 4 "CLP2" none (some 0xBC) none [
      ⟨"CLP2", 0x3FF, 0, 10, 32, 0⟩],
  .reg 4 "CLP1" none (some 0xC0) none [
      ⟨"CLP1", 0x1FF, 0, 9, 32, 0⟩],
  .reg 4 "CLP0" none (some 0xC4) none [
      ⟨"CLP0", 0xFF, 0, 8, 32, 0⟩],
  .reg 4 "CLPX" none (some 0xC8) none [
      ⟨"CLPX", 0x7F, 0, 7, 32, 0⟩],
  .reg 4 "CLP9" none (some 0xCC) none [
      ⟨"CLP9", 0x7F, 0, 7, 32, 0⟩],
  .reg 4 "CLPS_OFS" none (some 0xD0) none [
      ⟨"CLPS_OFS", 0xF, 0, 4, 32, 0⟩],
  .reg 4 "CLP3_OFS" none (some 0xD4) none [
      ⟨"CLP3_OFS", 0xF, 0, 4, 32, 0⟩],
  .reg 4 "CLP2_OFS" none (some 0xD8) none [
      ⟨"CLP2_OFS", 0xF, 0, 4, 32, 0⟩],
  .reg 4 "CLP1_OFS" none (some 0xDC) none [
      ⟨"CLP1_OFS", 0xF, 0, 4, 32, 0⟩],
  .reg 4 "CLP0_OFS" none (some 0xE0) none [
      ⟨"CLP0_OFS", 0xF, 0, 4, 32, 0⟩],
  .reg 4 "CLPX_OFS" none (some 0xE4) none [
      ⟨"CLPX_OFS", 0xFFF, 0, 12, 32, 0⟩],
  .reg 4 "CLP9_OFS" none (some 0xE8) none [
      ⟨"CLP9_OFS", 0xFFF, 0, 12, 32, 0⟩],
  .reg 1 "RESERVED_0" (some 28) none none [],
  .reg 4 "aSC1" (some 32) (some 0x108) (some 0x4) [
      ⟨"ADCH", 0x3F, 0, 6, 32, 0⟩, ⟨"AIEN", 0x40, 6, 1, 32, 0⟩, ⟨"COCO", 0x80, 7, 1, 32, 0⟩],
  .reg 4 "aR" (some 32) (some 0x188) (some 0x4) [
      ⟨"D", 0xFFF, 0, 12, 32, 0⟩]]

/-- `AIPS_Type` and the masks of its registers, S32K148.h:707–715 and 746–916. -/
def rAIPS : List Member := [
  .reg 4 "MPRA" none (some 0x0) none [
      ⟨"MPL2", 0x100000, 20, 1, 32, 0⟩, ⟨"MTW2", 0x200000, 21, 1, 32, 0⟩, ⟨"MTR2", 0x400000, 22, 1, 32, 0⟩,
      ⟨"MPL1", 0x1000000, 24, 1, 32, 0⟩, ⟨"MTW1", 0x2000000, 25, 1, 32, 0⟩, ⟨"MTR1", 0x4000000, 26, 1, 32, 0⟩,
      ⟨"MPL0", 0x10000000, 28, 1, 32, 0⟩, ⟨"MTW0", 0x20000000, 29, 1, 32, 0⟩, ⟨"MTR0", 0x40000000, 30, 1, 32, 0⟩],
  .reg 1 "RESERVED_0" (some 28) none none [],
  .reg 4 "PACR" (some 4) (some 0x20) (some 0x4) [
      ⟨"TP5", 0x100, 8, 1, 32, 0⟩, ⟨"WP5", 0x200, 9, 1, 32, 0⟩, ⟨"SP5", 0x400, 10, 1, 32, 0⟩,
      ⟨"TP1", 0x1000000, 24, 1, 32, 0⟩, ⟨"WP1", 0x2000000, 25, 1, 32, 0⟩, ⟨"SP1", 0x4000000, 26, 1, 32, 0⟩,
      ⟨"TP0", 0x10000000, 28, 1, 32, 0⟩, ⟨"WP0", 0x20000000, 29, 1, 32, 0⟩, ⟨"SP0", 0x40000000, 30, 1, 32, 0⟩],
  .reg 1 "RESERVED_1" (some 16) none none [],
  .reg 4 "OPACR" (some 12) (some 0x40) (some 0x4) [
      ⟨"TP7", 0x1, 0, 1, 32, 0⟩, ⟨"WP7", 0x2, 1, 1, 32, 0⟩, ⟨"SP7", 0x4, 2, 1, 32, 0⟩, ⟨"TP6", 0x10, 4, 1, 32, 0⟩,
      ⟨"WP6", 0x20, 5, 1, 32, 0⟩, ⟨"SP6", 0x40, 6, 1, 32, 0⟩, ⟨"TP5", 0x100, 8, 1, 32, 0⟩,
      ⟨"WP5", 0x200, 9, 1, 32, 0⟩, ⟨"SP5", 0x400, 10, 1, 32, 0⟩, ⟨"TP4", 0x1000, 12, 1, 32, 0⟩,
      ⟨"WP4", 0x2000, 13, 1, 32, 0⟩, ⟨"SP4", 0x4000, 14, 1, 32, 0⟩, ⟨"TP3", 0x10000, 16, 1, 32, 0⟩,
      ⟨"WP3", 0x20000, 17, 1, 32, 0⟩, ⟨"SP3", 0x40000, 18, 1, 32, 0⟩, ⟨"TP2", 0x100000, 20, 1, 32, 0⟩,
      ⟨"WP2", 0x200000, 21, 1, 32, 0⟩, ⟨"SP2", 0x400000, 22, 1, 32, 0⟩, ⟨"TP1", 0x1000000, 24, 1, 32, 0⟩,
      ⟨"WP1", 0x2000000, 25, 1, 32, 0⟩, ⟨"SP1", 0x4000000, 26, 1, 32, 0⟩, ⟨"TP0", 0x10000000, 28, 1, 32, 0⟩,
      ⟨"WP0", 0x20000000, 29, 1, 32, 0⟩, ⟨"SP0", 0x40000000, 30, 1, 32, 0⟩]]

/-- `CAN_Type` and the masks of its registers, S32K148.h:940–992 and 1076–1824. -/
def rCAN : List Member := [
  .reg 4 "MCR" none (some 0x0) none [
      ⟨"MAXMB", 0x7F, 0, 7, 32, 0⟩, ⟨"IDAM", 0x300, 8, 2, 32, 0⟩, ⟨"FDEN", 0x800, 11, 1, 32, 0⟩,
      ⟨"AEN", 0x1000, 12, 1, 32, 0⟩, ⟨"LPRIOEN", 0x2000, 13, 1, 32, 0⟩, ⟨"PNET_EN", 0x4000, 14, 1, 32, 0⟩,
      ⟨"DMA", 0x8000, 15, 1, 32, 0⟩, ⟨"IRMQ", 0x10000, 16, 1, 32, 0⟩, ⟨"SRXDIS", 0x20000, 17, 1, 32, 0⟩,
      ⟨"LPMACK", 0x100000, 20, 1, 32, 0⟩, ⟨"WRNEN", 0x200000, 21, 1, 32, 0⟩, ⟨"SUPV", 0x800000, 23, 1, 32, 0⟩,
      ⟨"FRZACK", 0x1000000, 24, 1, 32, 0⟩, ⟨"SOFTRST", 0x2000000, 25, 1, 32, 0⟩, ⟨"NOTRDY", 0x8000000, 27, 1, 32, 0⟩,
      ⟨"HALT", 0x10000000, 28, 1, 32, 0⟩, ⟨"RFEN", 0x20000000, 29, 1, 32, 0⟩, ⟨"FRZ", 0x40000000, 30, 1, 32, 0⟩,
      ⟨"MDIS", 0x80000000, 31, 1, 32, 0⟩],
  .reg 4 "CTRL1" none (some 0x4) none [
      ⟨"PROPSEG", 0x7, 0, 3, 32, 0⟩, ⟨"LOM", 0x8, 3, 1, 32, 0⟩, ⟨"LBUF", 0x10, 4, 1, 32, 0⟩,
      ⟨"TSYN", 0x20, 5, 1, 32, 0⟩, ⟨"BOFFREC", 0x40, 6, 1, 32, 0⟩, ⟨"SMP", 0x80, 7, 1, 32, 0⟩,
      ⟨"RWRNMSK", 0x400, 10, 1, 32, 0⟩, ⟨"TWRNMSK", 0x800, 11, 1, 32, 0⟩, ⟨"LPB", 0x1000, 12, 1, 32, 0⟩,
      ⟨"CLKSRC", 0x2000, 13, 1, 32, 0⟩, ⟨"ERRMSK", 0x4000, 14, 1, 32, 0⟩, ⟨"BOFFMSK", 0x8000, 15, 1, 32, 0⟩,
      ⟨"PSEG2", 0x70000, 16, 3, 32, 0⟩, ⟨"PSEG1", 0x380000, 19, 3, 32, 0⟩, ⟨"RJW", 0xC00000, 22, 2, 32, 0⟩,
      ⟨"PRESDIV", 0xFF000000, 24, 8, 32, 0⟩],
  .reg 4 "TIMER" none (some 0x8) none [
      ⟨"TIMER", 0xFFFF, 0, 16, 32, 0⟩],
  .reg 1 "RESERVED_0" (some 4) none none [],
  .reg 4 "RXMGMASK" none (some 0x10) none [
      ⟨"MG", 0xFFFFFFFF, 0, 32, 32, 0⟩],
  .reg 4 "RX14MASK" none (some 0x14) none [
      ⟨"RX14M", 0xFFFFFFFF, 0, 32, 32, 0⟩],
  .reg 4 "RX15MASK" none (some 0x18) none [
      ⟨"RX15M", 0xFFFFFFFF, 0, 32, 32, 0⟩],
  .reg 4 "ECR" none (some 0x1C) none [
      ⟨"TXERRCNT", 0xFF, 0, 8, 32, 0⟩, ⟨"RXERRCNT", 0xFF00, 8, 8, 32, 0⟩, ⟨"TXERRCNT_FAST", 0xFF0000, 16, 8, 32, 0⟩,
      ⟨"RXERRCNT_FAST", 0xFF000000, 24, 8, 32, 0⟩],
  .reg 4 "ESR1" none (some 0x20) none [
      ⟨"ERRINT", 0x2, 1, 1, 32, 0⟩, ⟨"BOFFINT", 0x4, 2, 1, 32, 0⟩, ⟨"RX", 0x8, 3, 1, 32, 0⟩,
      ⟨"FLTCONF", 0x30, 4, 2, 32, 0⟩, ⟨"TX", 0x40, 6, 1, 32, 0⟩, ⟨"IDLE", 0x80, 7, 1, 32, 0⟩,
      ⟨"RXWRN", 0x100, 8, 1, 32, 0⟩, ⟨"TXWRN", 0x200, 9, 1, 32, 0⟩, ⟨"STFERR", 0x400, 10, 1, 32, 0⟩,
      ⟨"FRMERR", 0x800, 11, 1, 32, 0⟩, ⟨"CRCERR", 0x1000, 12, 1, 32, 0⟩, ⟨"ACKERR", 0x2000, 13, 1, 32, 0⟩,
      ⟨"BIT0ERR", 0x4000, 14, 1, 32, 0⟩, ⟨"BIT1ERR", 0x8000, 15, 1, 32, 0⟩, ⟨"RWRNINT", 0x10000, 16, 1, 32, 0⟩,
      ⟨"TWRNINT", 0x20000, 17, 1, 32, 0⟩, ⟨"SYNCH", 0x40000, 18, 1, 32, 0⟩, ⟨"BOFFDONEINT", 0x80000, 19, 1, 32, 0⟩,
      ⟨"ERRINT_FAST", 0x100000, 20, 1, 32, 0⟩, ⟨"ERROVR", 0x200000, 21, 1, 32, 0⟩,
      ⟨"STFERR_FAST", 0x4000000, 26, 1, 32, 0⟩, ⟨"FRMERR_FAST", 0x8000000, 27, 1, 32, 0⟩,
      ⟨"CRCERR_FAST", 0x10000000, 28, 1, 32, 0⟩, ⟨"BIT0ERR_FAST", 0x40000000, 30, 1, 32, 0⟩,
      ⟨"BIT1ERR_FAST", 0x80000000, 31, 1, 32, 0⟩],
  .reg 1 "RESERVED_1" (some 4) none none [],
  .reg 4 "IMASK1" none (some 0x28) none [
      ⟨"BUF31TO0M", 0xFFFFFFFF, 0, 32, 32, 0⟩],
  .reg 1 "RESERVED_2" (some 4) none none [],
  .reg 4 "IFLAG1" none (some 0x30) none [
      ⟨"BUF0I", 0x1, 0, 1, 32, 0⟩, ⟨"BUF4TO1I", 0x1E, 1, 4, 32, 0⟩, ⟨"BUF5I", 0x20, 5, 1, 32, 0⟩,
      ⟨"BUF6I", 0x40, 6, 1, 32, 0⟩, ⟨"BUF7I", 0x80, 7, 1, 32, 0⟩, ⟨"BUF31TO8I", 0xFFFFFF00, 8, 24, 32, 0⟩],
  .reg 4 "CTRL2" none (some 0x34) none [
      ⟨"EDFLTDIS", 0x800, 11, 1, 32, 0⟩, ⟨"ISOCANFDEN", 0x1000, 12, 1, 32, 0⟩, ⟨"PREXCEN", 0x4000, 14, 1, 32, 0⟩,
      ⟨"TIMER_SRC", 0x8000, 15, 1, 32, 0⟩, ⟨"EACEN", 0x10000, 16, 1, 32, 0⟩, ⟨"RRS", 0x20000, 17, 1, 32, 0⟩,
      ⟨"MRP", 0x40000, 18, 1, 32, 0⟩, ⟨"TASD", 0xF80000, 19, 5, 32, 0⟩, ⟨"RFFN", 0xF000000, 24, 4, 32, 0⟩,
      ⟨"BOFFDONEMSK", 0x40000000, 30, 1, 32, 0⟩, ⟨"ERRMSK_FAST", 0x80000000, 31, 1, 32, 0⟩],
  .reg 4 "ESR2" none (some 0x38) none [
      ⟨"IMB", 0x2000, 13, 1, 32, 0⟩, ⟨"VPS", 0x4000, 14, 1, 32, 0⟩, ⟨"LPTM", 0x7F0000, 16, 7, 32, 0⟩],
  .reg 1 "RESERVED_3" (some 8) none none [],
  .reg 4 "CRCR" none (some 0x44) none [
      ⟨"TXCRC", 0x7FFF, 0, 15, 32, 0⟩, ⟨"MBCRC", 0x7F0000, 16, 7, 32, 0⟩],
  .reg 4 "RXFGMASK" none (some 0x48) none [
      ⟨"FGM", 0xFFFFFFFF, 0, 32, 32, 0⟩],
  .reg 4 "RXFIR" none (some 0x4C) none [
      ⟨"IDHIT", 0x1FF, 0, 9, 32, 0⟩],
  .reg 4 "CBT" none (some 0x50) none [
      ⟨"EPSEG2", 0x1F, 0, 5, 32, 0⟩, ⟨"EPSEG1", 0x3E0, 5, 5, 32, 0⟩, ⟨"EPROPSEG", 0xFC00, 10, 6, 32, 0⟩,
      ⟨"ERJW", 0x1F0000, 16, 5, 32, 0⟩, ⟨"EPRESDIV", 0x7FE00000, 21, 10, 32, 0⟩, ⟨"BTF", 0x80000000, 31, 1, 32, 0⟩],
  .reg 1 "RESERVED_4" (some 44) none none [],
  .reg 4 "RAMn" (some 128) (some 0x80) (some 0x4) [
      ⟨"DATA_BYTE_3", 0xFF, 0, 8, 32, 0⟩, ⟨"DATA_BYTE_2", 0xFF00, 8, 8, 32, 0⟩,
      ⟨"DATA_BYTE_1", 0xFF0000, 16, 8, 32, 0⟩, ⟨"DATA_BYTE_0", 0xFF000000, 24, 8, 32, 0⟩],
  .reg 1 "RESERVED_5" (some 1536) none none [],
  .reg 4 "RXIMR" (some 16) (some 0x880) (some 0x4) [
      ⟨"MI", 0xFFFFFFFF, 0, 32, 32, 0⟩],
  .reg 1 "RESERVED_6" (some 576) none none [],
  .reg 4 "CTRL1_PN" none (some 0xB00) none [
      ⟨"FCS", 0x3, 0, 2, 32, 0⟩, ⟨"IDFS", 0xC, 2, 2, 32, 0⟩, ⟨"PLFS", 0x30, 4, 2, 32, 0⟩,
      ⟨"NMATCH", 0xFF00, 8, 8, 32, 0⟩, ⟨"WUMF_MSK", 0x10000, 16, 1, 32, 0⟩, ⟨"WTOF_MSK", 0x20000, 17, 1, 32, 0⟩],
  .reg 4 "CTRL2_PN" none (some 0xB04) none [
      ⟨"MATCHTO", 0xFFFF, 0, 16, 32, 0⟩],
  .reg 4 "WU_MTC" none (some 0xB08) none [
      ⟨"MCOUNTER", 0xFF00, 8, 8, 32, 0⟩, ⟨"WUMF", 0x10000, 16, 1, 32, 0⟩, ⟨"WTOF", 0x20000, 17, 1, 32, 0⟩],
  .reg 4 "FLT_ID1" none (some 0xB0C) none [
      ⟨"FLT_ID1", 0x1FFFFFFF, 0, 29, 32, 0⟩, ⟨"FLT_RTR", 0x20000000, 29, 1, 32, 0⟩,
      ⟨"FLT_IDE", 0x40000000, 30, 1, 32, 0⟩],
  .reg 4 "FLT_DLC" none (some 0xB10) none [
      ⟨"FLT_DLC_HI", 0xF, 0, 4, 32, 0⟩, ⟨"FLT_DLC_LO", 0xF0000, 16, 4, 32, 0⟩],
  .reg 4 "PL1_LO" none (some 0xB14) none [
      ⟨"Data_byte_3", 0xFF, 0, 8, 32, 0⟩, ⟨"Data_byte_2", 0xFF00, 8, 8, 32, 0⟩,
      ⟨"Data_byte_1", 0xFF0000, 16, 8, 32, 0⟩, ⟨"Data_byte_0", 0xFF000000, 24, 8, 32, 0⟩],
  .reg 4 "PL1_HI" none (some 0xB18) none [
      ⟨"Data_byte_7", 0xFF, 0, 8, 32, 0⟩, ⟨"Data_byte_6", 0xFF00, 8, 8, 32, 0⟩,
      ⟨"Data_byte_5", 0xFF0000, 16, 8, 32, 0⟩, ⟨"Data_byte_4", 0xFF000000, 24, 8, 32, 0⟩],
  .reg 4 "FLT_ID2_IDMASK" none (some 0xB1C) none [
      ⟨"FLT_ID2_IDMASK", 0x1FFFFFFF, 0, 29, 32, 0⟩, ⟨"RTR_MSK", 0x20000000, 29, 1, 32, 0⟩,
      ⟨"IDE_MSK", 0x40000000, 30, 1, 32, 0⟩],
  .reg 4 "PL2_PLMASK_LO" none (some 0xB20) none [
      ⟨"Data_byte_3", 0xFF, 0, 8, 32, 0⟩, ⟨"Data_byte_2", 0xFF00, 8, 8, 32, 0⟩,
      ⟨"Data_byte_1", 0xFF0000, 16, 8, 32, 0⟩, ⟨"Data_byte_0", 0xFF000000, 24, 8, 32, 0⟩],
  .reg 4 "PL2_PLMASK_HI" none (some 0xB24) none [
      ⟨"Data_byte_7", 0xFF, 0, 8, 32, 0⟩, ⟨"Data_byte_6", 0xFF00, 8, 8, 32, 0⟩,
      ⟨"Data_byte_5", 0xFF0000, 16, 8, 32, 0⟩, ⟨"Data_byte_4", 0xFF000000, 24, 8, 32, 0⟩],
  .reg 1 "RESERVED_7" (some 24) none none [],
  .group false "WMB" (some 4) (some 0xB40) (some 0x10) [
    .reg 4 "WMBn_CS" none (some 0xB40) (some 0x10) [
        ⟨"DLC", 0xF0000, 16, 4, 32, 0⟩, ⟨"RTR", 0x100000, 20, 1, 32, 0⟩, ⟨"IDE", 0x200000, 21, 1, 32, 0⟩,
        ⟨"SRR", 0x400000, 22, 1, 32, 0⟩],
    .reg 4 "WMBn_ID" none (some 0xB44) (some 0x10) [
        ⟨"ID", 0x1FFFFFFF, 0, 29, 32, 0⟩],
    .reg 4 "WMBn_D03" none (some 0xB48) (some 0x10) [
        ⟨"Data_byte_3", 0xFF, 0, 8, 32, 0⟩, ⟨"Data_byte_2", 0xFF00, 8, 8, 32, 0⟩,
        ⟨"Data_byte_1", 0xFF0000, 16, 8, 32, 0⟩, ⟨"Data_byte_0", 0xFF000000, 24, 8, 32, 0⟩],
    .reg 4 "WMBn_D47" none (some 0xB4C) (some 0x10) [
        ⟨"Data_byte_7", 0xFF, 0, 8, 32, 0⟩, ⟨"Data_byte_6", 0xFF00, 8, 8, 32, 0⟩,
        ⟨"Data_byte_5", 0xFF0000, 16, 8, 32, 0⟩, ⟨"Data_byte_4", 0xFF000000, 24, 8, 32, 0⟩]],
  .reg 1 "RESERVED_8" (some 128) none none [],
  .reg 4 "FDCTRL" none (some 0xC00) none [
      ⟨"TDCVAL", 0x3F, 0, 6, 32, 0⟩, ⟨"TDCOFF", 0x1F00, 8, 5, 32, 0⟩, ⟨"TDCFAIL", 0x4000, 14, 1, 32, 0⟩,
      ⟨"TDCEN", 0x8000, 15, 1, 32, 0⟩, ⟨"MBDSR0", 0x30000, 16, 2, 32, 0⟩, ⟨"FDRATE", 0x80000000, 31, 1, 32, 0⟩],
  .reg 4 "FDCBT" none (some 0xC04) none [
      ⟨"FPSEG2", 0x7, 0, 3, 32, 0⟩, ⟨"FPSEG1", 0xE0, 5, 3, 32, 0⟩, ⟨"FPROPSEG", 0x7C00, 10, 5, 32, 0⟩,
      ⟨"FRJW", 0x70000, 16, 3, 32, 0⟩, ⟨"FPRESDIV", 0x3FF00000, 20, 10, 32, 0⟩],
  .reg 4 "FDCRC" none (some 0xC08) none [
      ⟨"FD_TXCRC", 0x1FFFFF, 0, 21, 32, 0⟩, ⟨"FD_MBCRC", 0x7F000000, 24, 7, 32, 0⟩]]

/-- `CMP_Type` and the masks of its registers, S32K148.h:1845–1850 and 1890–2080. -/
def rCMP : List Member := [
  .reg 4 "C0" none (some 0x0) none [
      ⟨"HYSTCTR", 0x3, 0, 2, 32, 0⟩, ⟨"OFFSET", 0x4, 2, 1, 32, 0⟩, ⟨"FILTER_CNT", 0x70, 4, 3, 32, 0⟩,
      ⟨"EN", 0x100, 8, 1, 32, 0⟩, ⟨"OPE", 0x200, 9, 1, 32, 0⟩, ⟨"COS", 0x400, 10, 1, 32, 0⟩,
      ⟨"INVT", 0x800, 11, 1, 32, 0⟩, ⟨"PMODE", 0x1000, 12, 1, 32, 0⟩, ⟨"WE", 0x4000, 14, 1, 32, 0⟩,
      ⟨"SE", 0x8000, 15, 1, 32, 0⟩, ⟨"FPR", 0xFF0000, 16, 8, 32, 0⟩, ⟨"COUT", 0x1000000, 24, 1, 32, 0⟩,
      ⟨"CFF", 0x2000000, 25, 1, 32, 0⟩, ⟨"CFR", 0x4000000, 26, 1, 32, 0⟩, ⟨"IEF", 0x8000000, 27, 1, 32, 0⟩,
      ⟨"IER", 0x10000000, 28, 1, 32, 0⟩, ⟨"DMAEN", 0x40000000, 30, 1, 32, 0⟩],
  .reg 4 "C1" none (some 0x4) none [
      ⟨"VOSEL", 0xFF, 0, 8, 32, 0⟩, ⟨"MSEL", 0x700, 8, 3, 32, 0⟩, ⟨"PSEL", 0x3800, 11, 3, 32, 0⟩,
      ⟨"VRSEL", 0x4000, 14, 1, 32, 0⟩, ⟨"DACEN", 0x8000, 15, 1, 32, 0⟩, ⟨"CHN0", 0x10000, 16, 1, 32, 0⟩,
      ⟨"CHN1", 0x20000, 17, 1, 32, 0⟩, ⟨"CHN2", 0x40000, 18, 1, 32, 0⟩, ⟨"CHN3", 0x80000, 19, 1, 32, 0⟩,
      ⟨"CHN4", 0x100000, 20, 1, 32, 0⟩, ⟨"CHN5", 0x200000, 21, 1, 32, 0⟩, ⟨"CHN6", 0x400000, 22, 1, 32, 0⟩,
      ⟨"CHN7", 0x800000, 23, 1, 32, 0⟩, ⟨"INNSEL", 0x3000000, 24, 2, 32, 0⟩, ⟨"INPSEL", 0x18000000, 27, 2, 32, 0⟩],
  .reg 4 "C2" none (some 0x8) none [
      ⟨"ACOn", 0xFF, 0, 8, 32, 0⟩, ⟨"INITMOD", 0x3F00, 8, 6, 32, 0⟩, ⟨"NSAM", 0xC000, 14, 2, 32, 0⟩,
      ⟨"CH0F", 0x10000, 16, 1, 32, 0⟩, ⟨"CH1F", 0x20000, 17, 1, 32, 0⟩, ⟨"CH2F", 0x40000, 18, 1, 32, 0⟩,
      ⟨"CH3F", 0x80000, 19, 1, 32, 0⟩, ⟨"CH4F", 0x100000, 20, 1, 32, 0⟩, ⟨"CH5F", 0x200000, 21, 1, 32, 0⟩,
      ⟨"CH6F", 0x400000, 22, 1, 32, 0⟩, ⟨"CH7F", 0x800000, 23, 1, 32, 0⟩, ⟨"FXMXCH", 0xE000000, 25, 3, 32, 0⟩,
      ⟨"FXMP", 0x20000000, 29, 1, 32, 0⟩, ⟨"RRIE", 0x40000000, 30, 1, 32, 0⟩, ⟨"RRE", 0x80000000, 31, 1, 32, 0⟩]]

/-- `CRC_Type` and the masks of its registers, S32K148.h:2101–2121 and 2152–2234. -/
def rCRC : List Member := [
  .group true "DATAu" none (some 0x0) none [
    .reg 4 "DATA" none (some 0x0) none [
        ⟨"LL", 0xFF, 0, 8, 32, 0⟩, ⟨"LU", 0xFF00, 8, 8, 32, 0⟩, ⟨"HL", 0xFF0000, 16, 8, 32, 0⟩,
        ⟨"HU", 0xFF000000, 24, 8, 32, 0⟩],
    .group false "DATA_16" none (some 0x0) none [
      .reg 2 "L" none (some 0x0) none [
          ⟨"DATAL", 0xFFFF, 0, 16, 16, 0⟩],
      .reg 2 "H" none (some 0x2) none [
          ⟨"DATAH", 0xFFFF, 0, 16, 16, 0⟩]],
    .group false "DATA_8" none (some 0x0) none [
      .reg 1 "LL" none (some 0x0) none [
          ⟨"DATALL", 0xFF, 0, 8, 8, 0⟩],
      .reg 1 "LU" none (some 0x1) none [
          ⟨"DATALU", 0xFF, 0, 8, 8, 0⟩],
      .reg 1 "HL" none (some 0x2) none [
          ⟨"DATAHL", 0xFF, 0, 8, 8, 0⟩],
      .reg 1 "HU" none (some 0x3) none [
          ⟨"DATAHU", 0xFF, 0, 8, 8, 0⟩]]],
  .reg 4 "GPOLY" none (some 0x4) none [
      ⟨"LOW", 0xFFFF, 0, 16, 32, 0⟩, ⟨"HIGH", 0xFFFF0000, 16, 16, 32, 0⟩],
  .reg 4 "CTRL" none (some 0x8) none [
      ⟨"TCRC", 0x1000000, 24, 1, 32, 0⟩, ⟨"WAS", 0x2000000, 25, 1, 32, 0⟩, ⟨"FXOR", 0x4000000, 26, 1, 32, 0⟩,
      ⟨"TOTR", 0x30000000, 28, 2, 32, 0⟩, ⟨"TOT", 0xC0000000, 30, 2, 32, 0⟩]]

/-- `CSE_PRAM_Type` and the masks of its registers, S32K148.h:2256–2273 and 2304–2350. -/
def rCSE_PRAM : List Member := [
  .group true "RAMn" (some 32) (some 0x0) (some 0x4) [
    .reg 4 "DATA_32" none (some 0x0) (some 0x4) [
        ⟨"BYTE_3", 0xFF, 0, 8, 32, 0⟩, ⟨"BYTE_2", 0xFF00, 8, 8, 32, 0⟩, ⟨"BYTE_1", 0xFF0000, 16, 8, 32, 0⟩,
        ⟨"BYTE_0", 0xFF000000, 24, 8, 32, 0⟩],
    .group false "ACCESS8BIT" none (some 0x0) (some 0x4) [
      .reg 1 "DATA_8LL" none (some 0x0) (some 0x4) [
          ⟨"RAM_LL", 0xFF, 0, 8, 8, 0⟩],
      .reg 1 "DATA_8LU" none (some 0x1) (some 0x4) [
          ⟨"RAM_LU", 0xFF, 0, 8, 8, 0⟩],
      .reg 1 "DATA_8HL" none (some 0x2) (some 0x4) [
          ⟨"RAM_HL", 0xFF, 0, 8, 8, 0⟩],
      .reg 1 "DATA_8HU" none (some 0x3) (some 0x4) [
          ⟨"RAM_HU", 0xFF, 0, 8, 8, 0⟩]]]]

/-- `DMA_Type` and the masks of its registers, S32K148.h:2375–2437 and 2484–3264. -/
def rDMA : List Member := [
  .reg 4 "CR" none (some 0x0) none [
      ⟨"EDBG", 0x2, 1, 1, 32, 0⟩, ⟨"ERCA", 0x4, 2, 1, 32, 0⟩, ⟨"HOE", 0x10, 4, 1, 32, 0⟩,
      ⟨"HALT", 0x20, 5, 1, 32, 0⟩, ⟨"CLM", 0x40, 6, 1, 32, 0⟩, ⟨"EMLM", 0x80, 7, 1, 32, 0⟩,
      ⟨"ECX", 0x10000, 16, 1, 32, 0⟩, ⟨"CX", 0x20000, 17, 1, 32, 0⟩],
  .reg 4 "ES" none (some 0x4) none [
      ⟨"DBE", 0x1, 0, 1, 32, 0⟩, ⟨"SBE", 0x2, 1, 1, 32, 0⟩, ⟨"SGE", 0x4, 2, 1, 32, 0⟩, ⟨"NCE", 0x8, 3, 1, 32, 0⟩,
      ⟨"DOE", 0x10, 4, 1, 32, 0⟩, ⟨"DAE", 0x20, 5, 1, 32, 0⟩, ⟨"SOE", 0x40, 6, 1, 32, 0⟩, ⟨"SAE", 0x80, 7, 1, 32, 0⟩,
      ⟨"ERRCHN", 0xF00, 8, 4, 32, 0⟩, ⟨"CPE", 0x4000, 14, 1, 32, 0⟩, ⟨"ECX", 0x10000, 16, 1, 32, 0⟩,
      ⟨"VLD", 0x80000000, 31, 1, 32, 0⟩],
  .reg 1 "RESERVED_0" (some 4) none none [],
  .reg 4 "ERQ" none (some 0xC) none [
      ⟨"ERQ0", 0x1, 0, 1, 32, 0⟩, ⟨"ERQ1", 0x2, 1, 1, 32, 0⟩, ⟨"ERQ2", 0x4, 2, 1, 32, 0⟩, ⟨"ERQ3", 0x8, 3, 1, 32, 0⟩,
      ⟨"ERQ4", 0x10, 4, 1, 32, 0⟩, ⟨"ERQ5", 0x20, 5, 1, 32, 0⟩, ⟨"ERQ6", 0x40, 6, 1, 32, 0⟩,
      ⟨"ERQ7", 0x80, 7, 1, 32, 0⟩, ⟨"ERQ8", 0x100, 8, 1, 32, 0⟩, ⟨"ERQ9", 0x200, 9, 1, 32, 0⟩,
      ⟨"ERQ10", 0x400, 10, 1, 32, 0⟩, ⟨"ERQ11", 0x800, 11, 1, 32, 0⟩, ⟨"ERQ12", 0x1000, 12, 1, 32, 0⟩,
      ⟨"ERQ13", 0x2000, 13, 1, 32, 0⟩, ⟨"ERQ14", 0x4000, 14, 1, 32, 0⟩, ⟨"ERQ15", 0x8000, 15, 1, 32, 0⟩],
  .reg 1 "RESERVED_1" (some 4) none none [],
  .reg 4 "EEI" none (some 0x14) none [
      ⟨"EEI0", 0x1, 0, 1, 32, 0⟩, ⟨"EEI1", 0x2, 1, 1, 32, 0⟩, ⟨"EEI2", 0x4, 2, 1, 32, 0⟩, ⟨"EEI3", 0x8, 3, 1, 32, 0⟩,
      ⟨"EEI4", 0x10, 4, 1, 32, 0⟩, ⟨"EEI5", 0x20, 5, 1, 32, 0⟩, ⟨"EEI6", 0x40, 6, 1, 32, 0⟩,
      ⟨"EEI7", 0x80, 7, 1, 32, 0⟩, ⟨"EEI8", 0x100, 8, 1, 32, 0⟩, ⟨"EEI9", 0x200, 9, 1, 32, 0⟩,
      ⟨"EEI10", 0x400, 10, 1, 32, 0⟩, ⟨"EEI11", 0x800, 11, 1, 32, 0⟩, ⟨"EEI12", 0x1000, 12, 1, 32, 0⟩,
      ⟨"EEI13", 0x2000, 13, 1, 32, 0⟩, ⟨"EEI14", 0x4000, 14, 1, 32, 0⟩, ⟨"EEI15", 0x8000, 15, 1, 32, 0⟩],
  .reg 1 "CEEI" none (some 0x18) none [
      ⟨"CEEI", 0xF, 0, 4, 8, 0⟩, ⟨"CAEE", 0x40, 6, 1, 8, 0⟩, ⟨"NOP", 0x80, 7, 1, 8, 0⟩],
  .reg 1 "SEEI" none (some 0x19) none [
      ⟨"SEEI", 0xF, 0, 4, 8, 0⟩, ⟨"SAEE", 0x40, 6, 1, 8, 0⟩, ⟨"NOP", 0x80, 7, 1, 8, 0⟩],
  .reg 1 "CERQ" none (some 0x1A) none [
      ⟨"CERQ", 0xF, 0, 4, 8, 0⟩, ⟨"CAER", 0x40, 6, 1, 8, 0⟩, ⟨"NOP", 0x80, 7, 1, 8, 0⟩],
  .reg 1 "SERQ" none (some 0x1B) none [
      ⟨"SERQ", 0xF, 0, 4, 8, 0⟩, ⟨"SAER", 0x40, 6, 1, 8, 0⟩, ⟨"NOP", 0x80, 7, 1, 8, 0⟩],
  .reg 1 "CDNE" none (some 0x1C) none [
      ⟨"CDNE", 0xF, 0, 4, 8, 0⟩, ⟨"CADN", 0x40, 6, 1, 8, 0⟩, ⟨"NOP", 0x80, 7, 1, 8, 0⟩],
  .reg 1 "SSRT" none (some 0x1D) none [
      ⟨"SSRT", 0xF, 0, 4, 8, 0⟩, ⟨"SAST", 0x40, 6, 1, 8, 0⟩, ⟨"NOP", 0x80, 7, 1, 8, 0⟩],
  .reg 1 "CERR" none (some 0x1E) none [
      ⟨"CERR", 0xF, 0, 4, 8, 0⟩, ⟨"CAEI", 0x40, 6, 1, 8, 0⟩, ⟨"NOP", 0x80, 7, 1, 8, 0⟩],
  .reg 1 "CINT" none (some 0x1F) none [
      ⟨"CINT", 0xF, 0, 4, 8, 0⟩, ⟨"CAIR", 0x40, 6, 1, 8, 0⟩, ⟨"NOP", 0x80, 7, 1, 8, 0⟩],
  .reg 1 "RESERVED_2" (some 4) none none [],
  .reg 4 "INT" none (some 0x24) none [
      ⟨"INT0", 0x1, 0, 1, 32, 0⟩, ⟨"INT1", 0x2, 1, 1, 32, 0⟩, ⟨"INT2", 0x4, 2, 1, 32, 0⟩, ⟨"INT3", 0x8, 3, 1, 32, 0⟩,
      ⟨"INT4", 0x10, 4, 1, 32, 0⟩, ⟨"INT5", 0x20, 5, 1, 32, 0⟩, ⟨"INT6", 0x40, 6, 1, 32, 0⟩,
      ⟨"INT7", 0x80, 7, 1, 32, 0⟩, ⟨"INT8", 0x100, 8, 1, 32, 0⟩, ⟨"INT9", 0x200, 9, 1, 32, 0⟩,
      ⟨"INT10", 0x400, 10, 1, 32, 0⟩, ⟨"INT11", 0x800, 11, 1, 32, 0⟩, ⟨"INT12", 0x1000, 12, 1, 32, 0⟩,
      ⟨"INT13", 0x2000, 13, 1, 32, 0⟩, ⟨"INT14", 0x4000, 14, 1, 32, 0⟩, ⟨"INT15", 0x8000, 15, 1, 32, 0⟩],
  .reg 1 "RESERVED_3" (some 4) none none [],
  .reg 4 "ERR" none (some 0x2C) none [
      ⟨"ERR0", 0x1, 0, 1, 32, 0⟩, ⟨"ERR1", 0x2, 1, 1, 32, 0⟩, ⟨"ERR2", 0x4, 2, 1, 32, 0⟩, ⟨"ERR3", 0x8, 3, 1, 32, 0⟩,
      ⟨"ERR4", 0x10, 4, 1, 32, 0⟩, ⟨"ERR5", 0x20, 5, 1, 32, 0⟩, ⟨"ERR6", 0x40, 6, 1, 32, 0⟩,
      ⟨"ERR7", 0x80, 7, 1, 32, 0⟩, ⟨"ERR8", 0x100, 8, 1, 32, 0⟩, ⟨"ERR9", 0x200, 9, 1, 32, 0⟩,
      ⟨"ERR10", 0x400, 10, 1, 32, 0⟩, ⟨"ERR11", 0x800, 11, 1, 32, 0⟩, ⟨"ERR12", 0x1000, 12, 1, 32, 0⟩,
      ⟨"ERR13", 0x2000, 13, 1, 32, 0⟩, ⟨"ERR14", 0x4000, 14, 1, 32, 0⟩, ⟨"ERR15", 0x8000, 15, 1, 32, 0⟩],
  .reg 1 "RESERVED_4" (some 4) none none [],
  .reg 4 "HRS" none (some 0x34) none [
      ⟨"HRS0", 0x1, 0, 1, 32, 0⟩, ⟨"HRS1", 0x2, 1, 1, 32, 0⟩, ⟨"HRS2", 0x4, 2, 1, 32, 0⟩, ⟨"HRS3", 0x8, 3, 1, 32, 0⟩,
      ⟨"HRS4", 0x10, 4, 1, 32, 0⟩, ⟨"HRS5", 0x20, 5, 1, 32, 0⟩, ⟨"HRS6", 0x40, 6, 1, 32, 0⟩,
      ⟨"HRS7", 0x80, 7, 1, 32, 0⟩, ⟨"HRS8", 0x100, 8, 1, 32, 0⟩, ⟨"HRS9", 0x200, 9, 1, 32, 0⟩,
      ⟨"HRS10", 0x400, 10, 1, 32, 0⟩, ⟨"HRS11", 0x800, 11, 1, 32, 0⟩, ⟨"HRS12", 0x1000, 12, 1, 32, 0⟩,
      ⟨"HRS13", 0x2000, 13, 1, 32, 0⟩, ⟨"HRS14", 0x4000, 14, 1, 32, 0⟩, ⟨"HRS15", 0x8000, 15, 1, 32, 0⟩],
  .reg 1 "RESERVED_5" (some 12) none none [],
  .reg 4 "EARS" none (some 0x44) none [
      ⟨"EDREQ_0", 0x1, 0, 1, 32, 0⟩, ⟨"EDREQ_1", 0x2, 1, 1, 32, 0⟩, ⟨"EDREQ_2", 0x4, 2, 1, 32, 0⟩,
      ⟨"EDREQ_3", 0x8, 3, 1, 32, 0⟩, ⟨"EDREQ_4", 0x10, 4, 1, 32, 0⟩, ⟨"EDREQ_5", 0x20, 5, 1, 32, 0⟩,
      ⟨"EDREQ_6", 0x40, 6, 1, 32, 0⟩, ⟨"EDREQ_7", 0x80, 7, 1, 32, 0⟩, ⟨"EDREQ_8", 0x100, 8, 1, 32, 0⟩,
      ⟨"EDREQ_9", 0x200, 9, 1, 32, 0⟩, ⟨"EDREQ_10", 0x400, 10, 1, 32, 0⟩, ⟨"EDREQ_11", 0x800, 11, 1, 32, 0⟩,
      ⟨"EDREQ_12", 0x1000, 12, 1, 32, 0⟩, ⟨"EDREQ_13", 0x2000, 13, 1, 32, 0⟩, ⟨"EDREQ_14", 0x4000, 14, 1, 32, 0⟩,
      ⟨"EDREQ_15", 0x8000, 15, 1, 32, 0⟩],
  .reg 1 "RESERVED_6" (some 184) none none [],
  .reg 1 "DCHPRI" (some 16) (some 0x100) (some 0x1) [
      ⟨"CHPRI", 0xF, 0, 4, 8, 0⟩, ⟨"DPA", 0x40, 6, 1, 8, 0⟩, ⟨"ECP", 0x80, 7, 1, 8, 0⟩],
  .reg 1 "RESERVED_7" (some 3824) none none [],
  .group false "TCD" (some 16) (some 0x1000) (some 0x20) [
    .reg 4 "SADDR" none (some 0x1000) (some 0x20) [
        ⟨"SADDR", 0xFFFFFFFF, 0, 32, 32, 0⟩],
    .reg 2 "SOFF" none (some 0x1004) (some 0x20) [
        ⟨"SOFF", 0xFFFF, 0, 16, 16, 0⟩],
    .reg 2 "ATTR" none (some 0x1006) (some 0x20) [
        ⟨"DSIZE", 0x7, 0, 3, 16, 0⟩, ⟨"DMOD", 0xF8, 3, 5, 16, 0⟩, ⟨"SSIZE", 0x700, 8, 3, 16, 0⟩,
        ⟨"SMOD", 0xF800, 11, 5, 16, 0⟩],
    .group true "NBYTES" none (some 0x1008) (some 0x20) [
      .reg 4 "MLNO" none (some 0x1008) (some 0x20) [
          ⟨"NBYTES", 0xFFFFFFFF, 0, 32, 32, 0⟩],
      .reg 4 "MLOFFNO" none (some 0x1008) (some 0x20) [
          ⟨"NBYTES", 0x3FFFFFFF, 0, 30, 32, 0⟩, ⟨"DMLOE", 0x40000000, 30, 1, 32, 0⟩,
          ⟨"SMLOE", 0x80000000, 31, 1, 32, 0⟩],
      .reg 4 "MLOFFYES" none (some 0x1008) (some 0x20) [
          ⟨"NBYTES", 0x3FF, 0, 10, 32, 0⟩, ⟨"MLOFF", 0x3FFFFC00, 10, 20, 32, 0⟩, ⟨"DMLOE", 0x40000000, 30, 1, 32, 0⟩,
          ⟨"SMLOE", 0x80000000, 31, 1, 32, 0⟩]],
    .reg 4 "SLAST" none (some 0x100C) (some 0x20) [
        ⟨"SLAST", 0xFFFFFFFF, 0, 32, 32, 0⟩],
    .reg 4 "DADDR" none (some 0x1010) (some 0x20) [
        ⟨"DADDR", 0xFFFFFFFF, 0, 32, 32, 0⟩],
    .reg 2 "DOFF" none (some 0x1014) (some 0x20) [
        ⟨"DOFF", 0xFFFF, 0, 16, 16, 0⟩],
    .group true "CITER" none (some 0x1016) (some 0x20) [
      .reg 2 "ELINKNO" none (some 0x1016) (some 0x20) [
          ⟨"CITER", 0x7FFF, 0, 15, 16, 0⟩, ⟨"ELINK", 0x8000, 15, 1, 16, 0⟩],
      .reg 2 "ELINKYES" none (some 0x1016) (some 0x20) [
          ⟨"CITER_LE", 0x1FF, 0, 9, 16, 0⟩, ⟨"LINKCH", 0x1E00, 9, 4, 16, 0⟩, ⟨"ELINK", 0x8000, 15, 1, 16, 0⟩]],
    .reg 4 "DLASTSGA" none (some 0x1018) (some 0x20) [
        ⟨"DLASTSGA", 0xFFFFFFFF, 0, 32, 32, 0⟩],
    .reg 2 "CSR" none (some 0x101C) (some 0x20) [
        ⟨"START", 0x1, 0, 1, 16, 0⟩, ⟨"INTMAJOR", 0x2, 1, 1, 16, 0⟩, ⟨"INTHALF", 0x4, 2, 1, 16, 0⟩,
        ⟨"DREQ", 0x8, 3, 1, 16, 0⟩, ⟨"ESG", 0x10, 4, 1, 16, 0⟩, ⟨"MAJORELINK", 0x20, 5, 1, 16, 0⟩,
        ⟨"ACTIVE", 0x40, 6, 1, 16, 0⟩, ⟨"DONE", 0x80, 7, 1, 16, 0⟩, ⟨"MAJORLINKCH", 0xF00, 8, 4, 16, 0⟩,
        ⟨"BWC", 0xC000, 14, 2, 16, 0⟩],
    .group true "BITER" none (some 0x101E) (some 0x20) [
      .reg 2 "ELINKNO" none (some 0x101E) (some 0x20) [
          ⟨"BITER", 0x7FFF, 0, 15, 16, 0⟩, ⟨"ELINK", 0x8000, 15, 1, 16, 0⟩],
      .reg 2 "ELINKYES" none (some 0x101E) (some 0x20) [
          ⟨"BITER", 0x1FF, 0, 9, 16, 0⟩, ⟨"LINKCH", 0x1E00, 9, 4, 16, 0⟩, ⟨"ELINK", 0x8000, 15, 1, 16, 0⟩]]]]

/-- `DMAMUX_Type` and the masks of its registers, S32K148.h:3287–3290 and 3321–3333. -/
def rDMAMUX : List Member := [
  .reg 1 "CHCFG" (some 16) (some 0x0) (some 0x1) [
      ⟨"SOURCE", 0x3F, 0, 6, 8, 0⟩, ⟨"TRIG", 0x40, 6, 1, 8, 0⟩, ⟨"ENBL", 0x80, 7, 1, 8, 0⟩]]

/-- `EIM_Type` and the masks of its registers, S32K148.h:3355–3366 and 3397–3421. -/
def rEIM : List Member := [
  .reg 4 "EIMCR" none (some 0x0) none [
      ⟨"GEIEN", 0x1, 0, 1, 32, 0⟩],
  .reg 4 "EICHEN" none (some 0x4) none [
      ⟨"EICH1EN", 0x40000000, 30, 1, 32, 0⟩, ⟨"EICH0EN", 0x80000000, 31, 1, 32, 0⟩],
  .reg 1 "RESERVED_0" (some 248) none none [],
  .group false "EICHDn" (some 2) (some 0x100) (some 0x100) [
    .reg 4 "WORD0" none (some 0x100) (some 0x100) [
        ⟨"CHKBIT_MASK", 0xFE000000, 25, 7, 32, 0⟩],
    .reg 4 "WORD1" none (some 0x104) (some 0x100) [
        ⟨"B0_3DATA_MASK", 0xFFFFFFFF, 0, 32, 32, 0⟩],
    .reg 1 "RESERVED_0" (some 248) none none []]]

/-- `ENET_Type` and the masks of its registers, S32K148.h:3444–3565 and 3635–4521. -/
def rENET : List Member := [
  .reg 1 "RESERVED_0" (some 4) none none [],
  .reg 4 "EIR" none (some 0x4) none [
      ⟨"TS_TIMER", 0x8000, 15, 1, 32, 0⟩, ⟨"TS_AVAIL", 0x10000, 16, 1, 32, 0⟩, ⟨"WAKEUP", 0x20000, 17, 1, 32, 0⟩,
      ⟨"PLR", 0x40000, 18, 1, 32, 0⟩, ⟨"UN", 0x80000, 19, 1, 32, 0⟩, ⟨"RL", 0x100000, 20, 1, 32, 0⟩,
      ⟨"LC", 0x200000, 21, 1, 32, 0⟩, ⟨"EBERR", 0x400000, 22, 1, 32, 0⟩, ⟨"MII", 0x800000, 23, 1, 32, 0⟩,
      ⟨"RXB", 0x1000000, 24, 1, 32, 0⟩, ⟨"RXF", 0x2000000, 25, 1, 32, 0⟩, ⟨"TXB", 0x4000000, 26, 1, 32, 0⟩,
      ⟨"TXF", 0x8000000, 27, 1, 32, 0⟩, ⟨"GRA", 0x10000000, 28, 1, 32, 0⟩, ⟨"BABT", 0x20000000, 29, 1, 32, 0⟩,
      ⟨"BABR", 0x40000000, 30, 1, 32, 0⟩],
  .reg 4 "EIMR" none (some 0x8) none [
      ⟨"TS_TIMER", 0x8000, 15, 1, 32, 0⟩, ⟨"TS_AVAIL", 0x10000, 16, 1, 32, 0⟩, ⟨"WAKEUP", 0x20000, 17, 1, 32, 0⟩,
      ⟨"PLR", 0x40000, 18, 1, 32, 0⟩, ⟨"UN", 0x80000, 19, 1, 32, 0⟩, ⟨"RL", 0x100000, 20, 1, 32, 0⟩,
      ⟨"LC", 0x200000, 21, 1, 32, 0⟩, ⟨"EBERR", 0x400000, 22, 1, 32, 0⟩, ⟨"MII", 0x800000, 23, 1, 32, 0⟩,
      ⟨"RXB", 0x1000000, 24, 1, 32, 0⟩, ⟨"RXF", 0x2000000, 25, 1, 32, 0⟩, ⟨"TXB", 0x4000000, 26, 1, 32, 0⟩,
      ⟨"TXF", 0x8000000, 27, 1, 32, 0⟩, ⟨"GRA", 0x10000000, 28, 1, 32, 0⟩, ⟨"BABT", 0x20000000, 29, 1, 32, 0⟩,
      ⟨"BABR", 0x40000000, 30, 1, 32, 0⟩],
  .reg 1 "RESERVED_1" (some 4) none none [],
  .reg 4 "RDAR" none (some 0x10) none [
      ⟨"RDAR", 0x1000000, 24, 1, 32, 0⟩],
  .reg 4 "TDAR" none (some 0x14) none [
      ⟨"TDAR", 0x1000000, 24, 1, 32, 0⟩],
  .reg 1 "RESERVED_2" (some 12) none none [],
  .reg 4 "ECR" none (some 0x24) none [
      ⟨"RESET", 0x1, 0, 1, 32, 0⟩, ⟨"ETHEREN", 0x2, 1, 1, 32, 0⟩, ⟨"MAGICEN", 0x4, 2, 1, 32, 0⟩,
      ⟨"SLEEP", 0x8, 3, 1, 32, 0⟩, ⟨"EN1588", 0x10, 4, 1, 32, 0⟩, ⟨"DBGEN", 0x40, 6, 1, 32, 0⟩,
      ⟨"DBSWP", 0x100, 8, 1, 32, 0⟩],
  .reg 1 "RESERVED_3" (some 24) none none [],
  .reg 4 "MMFR" none (some 0x40) none [
      ⟨"DATA", 0xFFFF, 0, 16, 32, 0⟩, ⟨"TA", 0x30000, 16, 2, 32, 0⟩, ⟨"RA", 0x7C0000, 18, 5, 32, 0⟩,
      ⟨"PA", 0xF800000, 23, 5, 32, 0⟩, ⟨"OP", 0x30000000, 28, 2, 32, 0⟩, ⟨"ST", 0xC0000000, 30, 2, 32, 0⟩],
  .reg 4 "MSCR" none (some 0x44) none [
      ⟨"MII_SPEED", 0x7E, 1, 6, 32, 0⟩, ⟨"DIS_PRE", 0x80, 7, 1, 32, 0⟩, ⟨"HOLDTIME", 0x700, 8, 3, 32, 0⟩],
  .reg 1 "RESERVED_4" (some 28) none none [],
  .reg 4 "MIBC" none (some 0x64) none [
      ⟨"MIB_CLEAR", 0x20000000, 29, 1, 32, 0⟩, ⟨"MIB_IDLE", 0x40000000, 30, 1, 32, 0⟩,
      ⟨"MIB_DIS", 0x80000000, 31, 1, 32, 0⟩],
  .reg 1 "RESERVED_5" (some 28) none none [],
  .reg 4 "RCR" none (some 0x84) none [
      ⟨"LOOP", 0x1, 0, 1, 32, 0⟩, ⟨"DRT", 0x2, 1, 1, 32, 0⟩, ⟨"MII_MODE", 0x4, 2, 1, 32, 0⟩,
      ⟨"PROM", 0x8, 3, 1, 32, 0⟩, ⟨"BC_REJ", 0x10, 4, 1, 32, 0⟩, ⟨"FCE", 0x20, 5, 1, 32, 0⟩,
      ⟨"RMII_MODE", 0x100, 8, 1, 32, 0⟩, ⟨"RMII_10T", 0x200, 9, 1, 32, 0⟩, ⟨"PADEN", 0x1000, 12, 1, 32, 0⟩,
      ⟨"PAUFWD", 0x2000, 13, 1, 32, 0⟩, ⟨"CRCFWD", 0x4000, 14, 1, 32, 0⟩, ⟨"CFEN", 0x8000, 15, 1, 32, 0⟩,
      ⟨"MAX_FL", 0x3FFF0000, 16, 14, 32, 0⟩, ⟨"NLC", 0x40000000, 30, 1, 32, 0⟩, ⟨"GRS", 0x80000000, 31, 1, 32, 0⟩],
  .reg 1 "RESERVED_6" (some 60) none none [],
  .reg 4 "TCR" none (some 0xC4) none [
      ⟨"GTS", 0x1, 0, 1, 32, 0⟩, ⟨"FDEN", 0x4, 2, 1, 32, 0⟩, ⟨"TFC_PAUSE", 0x8, 3, 1, 32, 0⟩,
      ⟨"RFC_PAUSE", 0x10, 4, 1, 32, 0⟩, ⟨"ADDSEL", 0xE0, 5, 3, 32, 0⟩, ⟨"ADDINS", 0x100, 8, 1, 32, 0⟩,
      ⟨"CRCFWD", 0x200, 9, 1, 32, 0⟩],
  .reg 1 "RESERVED_7" (some 28) none none [],
  .reg 4 "PALR" none (some 0xE4) none [
      ⟨"PADDR1", 0xFFFFFFFF, 0, 32, 32, 0⟩],
  .reg 4 "PAUR" none (some 0xE8) none [
      ⟨"TYPE", 0xFFFF, 0, 16, 32, 0⟩, ⟨"PADDR2", 0xFFFF0000, 16, 16, 32, 0⟩],
  .reg 4 "OPD" none (some 0xEC) none [
      ⟨"PAUSE_DUR", 0xFFFF, 0, 16, 32, 0⟩, ⟨"OPCODE", 0xFFFF0000, 16, 16, 32, 0⟩],
  .reg 1 "RESERVED_8" (some 40) none none [],
  .reg 4 "IAUR" none (some 0x118) none [
      ⟨"IADDR1", 0xFFFFFFFF, 0, 32, 32, 0⟩],
  .reg 4 "IALR" none (some 0x11C) none [
      ⟨"IADDR2", 0xFFFFFFFF, 0, 32, 32, 0⟩],
  .reg 4 "GAUR" none (some 0x120) none [
      ⟨"GADDR1", 0xFFFFFFFF, 0, 32, 32, 0⟩],
  .reg 4 "GALR" none (some 0x124) none [
      ⟨"GADDR2", 0xFFFFFFFF, 0, 32, 32, 0⟩],
  .reg 1 "RESERVED_9" (some 28) none none [],
  .reg 4 "TFWR" none (some 0x144) none [
      ⟨"TFWR", 0x3F, 0, 6, 32, 0⟩, ⟨"STRFWD", 0x100, 8, 1, 32, 0⟩],
  .reg 1 "RESERVED_10" (some 56) none none [],
  .reg 4 "RDSR" none (some 0x180) none [
      ⟨"R_DES_START", 0xFFFFFFF8, 3, 29, 32, 0⟩],
  .reg 4 "TDSR" none (some 0x184) none [
      ⟨"X_DES_START", 0xFFFFFFF8, 3, 29, 32, 0⟩],
  .reg 4 "MRBR" none (some 0x188) none [
      ⟨"R_BUF_SIZE", 0x3FF0, 4, 10, 32, 0⟩],
  .reg 1 "RESERVED_11" (some 4) none none [],
  .reg 4 "RSFL" none (some 0x190) none [
      ⟨"RX_SECTION_FULL", 0xFF, 0, 8, 32, 0⟩],
  .reg 4 "RSEM" none (some 0x194) none [
      ⟨"RX_SECTION_EMPTY", 0xFF, 0, 8, 32, 0⟩, ⟨"STAT_SECTION_EMPTY", 0x1F0000, 16, 5, 32, 0⟩],
  .reg 4 "RAEM" none (some 0x198) none [
      ⟨"RX_ALMOST_EMPTY", 0xFF, 0, 8, 32, 0⟩],
  .reg 4 "RAFL" none (some 0x19C) none [
      ⟨"RX_ALMOST_FULL", 0xFF, 0, 8, 32, 0⟩],
  .reg 4 "TSEM" none (some 0x1A0) none [
      ⟨"TX_SECTION_EMPTY", 0xFF, 0, 8, 32, 0⟩],
  .reg 4 "TAEM" none (some 0x1A4) none [
      ⟨"TX_ALMOST_EMPTY", 0xFF, 0, 8, 32, 0⟩],
  .reg 4 "TAFL" none (some 0x1A8) none [
      ⟨"TX_ALMOST_FULL", 0xFF, 0, 8, 32, 0⟩],
  .reg 4 "TIPG" none (some 0x1AC) none [
      ⟨"IPG", 0x1F, 0, 5, 32, 0⟩],
  .reg 4 "FTRL" none (some 0x1B0) none [
      ⟨"TRUNC_FL", 0x3FFF, 0, 14, 32, 0⟩],
  .reg 1 "RESERVED_12" (some 12) none none [],
  .reg 4 "TACC" none (some 0x1C0) none [
      ⟨"SHIFT16", 0x1, 0, 1, 32, 0⟩, ⟨"IPCHK", 0x8, 3, 1, 32, 0⟩, ⟨"PROCHK", 0x10, 4, 1, 32, 0⟩],
  .reg 4 "RACC" none (some 0x1C4) none [
      ⟨"PADREM", 0x1, 0, 1, 32, 0⟩, ⟨"IPDIS", 0x2, 1, 1, 32, 0⟩, ⟨"PRODIS", 0x4, 2, 1, 32, 0⟩,
      ⟨"LINEDIS", 0x40, 6, 1, 32, 0⟩, ⟨"SHIFT16", 0x80, 7, 1, 32, 0⟩],
  .reg 1 "RESERVED_13" (some 56) none none [],
  .reg 4 "RMON_T_DROP" none (some 0x200) none [],
  .reg 4 "RMON_T_PACKETS" none (some 0x204) none [
      ⟨"TXPKTS", 0xFFFF, 0, 16, 32, 0⟩],
  .reg 4 "RMON_T_BC_PKT" none (some 0x208) none [
      ⟨"TXPKTS", 0xFFFF, 0, 16, 32, 0⟩],
  .reg 4 "RMON_T_MC_PKT" none (some 0x20C) none [
      ⟨"TXPKTS", 0xFFFF, 0, 16, 32, 0⟩],
  .reg 4 "RMON_T_CRC_ALIGN" none (some 0x210) none [
      ⟨"TXPKTS", 0xFFFF, 0, 16, 32, 0⟩],
  .reg 4 "RMON_T_UNDERSIZE" none (some 0x214) none [
      ⟨"TXPKTS", 0xFFFF, 0, 16, 32, 0⟩],
  .reg 4 "RMON_T_OVERSIZE" none (some 0x218) none [
      ⟨"TXPKTS", 0xFFFF, 0, 16, 32, 0⟩],
  .reg 4 "RMON_T_FRAG" none (some 0x21C) none [
      ⟨"TXPKTS", 0xFFFF, 0, 16, 32, 0⟩],
  .reg 4 "RMON_T_JAB" none (some 0x220) none [
      ⟨"TXPKTS", 0xFFFF, 0, 16, 32, 0⟩],
  .reg 4 "RMON_T_COL" none (some 0x224) none [
      ⟨"TXPKTS", 0xFFFF, 0, 16, 32, 0⟩],
  .reg 4 "RMON_T_P64" none (some 0x228) none [
      ⟨"TXPKTS", 0xFFFF, 0, 16, 32, 0⟩],
  .reg 4 "RMON_T_P65TO127" none (some 0x22C) none [
      ⟨"TXPKTS", 0xFFFF, 0, 16, 32, 0⟩],
  .reg 4 "RMON_T_P128TO255" none (some 0x230) none [
      ⟨"TXPKTS", 0xFFFF, 0, 16, 32, 0⟩],
  .reg 4 "RMON_T_P256TO511" none (some 0x234) none [
      ⟨"TXPKTS", 0xFFFF, 0, 16, 32, 0⟩],
  .reg 4 "RMON_T_P512TO1023" none (some 0x238) none [
      ⟨"TXPKTS", 0xFFFF, 0, 16, 32, 0⟩],
  .reg 4 "RMON_T_P1024TO2047" none (some 0x23C) none [
      ⟨"TXPKTS", 0xFFFF, 0, 16, 32, 0⟩],
  .reg 4 "RMON_T_P_GTE2048" none (some 0x240) none [
      ⟨"TXPKTS", 0xFFFF, 0, 16, 32, 0⟩],
  .reg 4 "RMON_T_OCTETS" none (some 0x244) none [
      ⟨"TXOCTS", 0xFFFFFFFF, 0, 32, 32, 0⟩],
  .reg 4 "IEEE_T_DROP" none (some 0x248) none [],
  .reg 4 "IEEE_T_FRAME_OK" none (some 0x24C) none [
      ⟨"COUNT", 0xFFFF, 0, 16, 32, 0⟩],
  .reg 4 "IEEE_T_1COL" none (some 0x250) none [
      ⟨"COUNT", 0xFFFF, 0, 16, 32, 0⟩],
  .reg 4 "IEEE_T_MCOL" none (some 0x254) none [
      ⟨"COUNT", 0xFFFF, 0, 16, 32, 0⟩],
  .reg 4 "IEEE_T_DEF" none (some 0x258) none [
      ⟨"COUNT", 0xFFFF, 0, 16, 32, 0⟩],
  .reg 4 "IEEE_T_LCOL" none (some 0x25C) none [
      ⟨"COUNT", 0xFFFF, 0, 16, 32, 0⟩],
  .reg 4 "IEEE_T_EXCOL" none (some 0x260) none [
      ⟨"COUNT", 0xFFFF, 0, 16, 32, 0⟩],
  .reg 4 "IEEE_T_MACERR" none (some 0x264) none [
      ⟨"COUNT", 0xFFFF, 0, 16, 32, 0⟩],
  .reg 4 "IEEE_T_CSERR" none (some 0x268) none [
      ⟨"COUNT", 0xFFFF, 0, 16, 32, 0⟩],
  .reg 4 "IEEE_T_SQE" none (some 0x26C) none [
      ⟨"COUNT", 0xFFFF, 0, 16, 32, 0⟩],
  .reg 4 "IEEE_T_FDXFC" none (some 0x270) none [
      ⟨"COUNT", 0xFFFF, 0, 16, 32, 0⟩],
  .reg 4 "IEEE_T_OCTETS_OK" none (some 0x274) none [
      ⟨"COUNT", 0xFFFFFFFF, 0, 32, 32, 0⟩],
  .reg 1 "RESERVED_14" (some 12) none none [],
  .reg 4 "RMON_R_PACKETS" none (some 0x284) none [
      ⟨"COUNT", 0xFFFF, 0, 16, 32, 0⟩],
  .reg 4 "RMON_R_BC_PKT" none (some 0x288) none [
      ⟨"COUNT", 0xFFFF, 0, 16, 32, 0⟩],
  .reg 4 "RMON_R_MC_PKT" none (some 0x28C) none [
      ⟨"COUNT", 0xFFFF, 0, 16, 32, 0⟩],
  .reg 4 "RMON_R_CRC_ALIGN" none (some 0x290) none [
      ⟨"COUNT", 0xFFFF, 0, 16, 32, 0⟩],
  .reg 4 "RMON_R_UNDERSIZE" none (some 0x294) none [
      ⟨"COUNT", 0xFFFF, 0, 16, 32, 0⟩],
  .reg 4 "RMON_R_OVERSIZE" none (some 0x298) none [
      ⟨"COUNT", 0xFFFF, 0, 16, 32, 0⟩],
  .reg 4 "RMON_R_FRAG" none (some 0x29C) none [
      ⟨"COUNT", 0xFFFF, 0, 16, 32, 0⟩],
  .reg 4 "RMON_R_JAB" none (some 0x2A0) none [
      ⟨"COUNT", 0xFFFF, 0, 16, 32, 0⟩],
  .reg 4 "RMON_R_RESVD_0" none (some 0x2A4) none [],
  .reg 4 "RMON_R_P64" none (some 0x2A8) none [
      ⟨"COUNT", 0xFFFF, 0, 16, 32, 0⟩],
  .reg 4 "RMON_R_P65TO127" none (some 0x2AC) none [
      ⟨"COUNT", 0xFFFF, 0, 16, 32, 0⟩],
  .reg 4 "RMON_R_P128TO255" none (some 0x2B0) none [
      ⟨"COUNT", 0xFFFF, 0, 16, 32, 0⟩],
  .reg 4 "RMON_R_P256TO511" none (some 0x2B4) none [
      ⟨"COUNT", 0xFFFF, 0, 16, 32, 0⟩],
  .reg 4 "RMON_R_P512TO1023" none (some 0x2B8) none [
      ⟨"COUNT", 0xFFFF, 0, 16, 32, 0⟩],
  .reg 4 "RMON_R_P1024TO2047" none (some 0x2BC) none [
      ⟨"COUNT", 0xFFFF, 0, 16, 32, 0⟩],
  .reg 4 "RMON_R_P_GTE2048" none (some 0x2C0) none [
      ⟨"COUNT", 0xFFFF, 0, 16, 32, 0⟩],
  .reg 4 "RMON_R_OCTETS" none (some 0x2C4) none [
      ⟨"COUNT", 0xFFFFFFFF, 0, 32, 32, 0⟩],
  .reg 4 "IEEE_R_DROP" none (some 0x2C8) none [
      ⟨"COUNT", 0xFFFF, 0, 16, 32, 0⟩],
  .reg 4 "IEEE_R_FRAME_OK" none (some 0x2CC) none [
      ⟨"COUNT", 0xFFFF, 0, 16, 32, 0⟩],
  .reg 4 "IEEE_R_CRC" none (some 0x2D0) none [
      ⟨"COUNT", 0xFFFF, 0, 16, 32, 0⟩],
  .reg 4 "IEEE_R_ALIGN" none (some 0x2D4) none [
      ⟨"COUNT", 0xFFFF, 0, 16, 32, 0⟩],
  .reg 4 "IEEE_R_MACERR" none (some 0x2D8) none [
      ⟨"COUNT", 0xFFFF, 0, 16, 32, 0⟩],
  .reg 4 "IEEE_R_FDXFC" none (some 0x2DC) none [
      ⟨"COUNT", 0xFFFF, 0, 16, 32, 0⟩],
  .reg 4 "IEEE_R_OCTETS_OK" none (some 0x2E0) none [
      ⟨"COUNT", 0xFFFFFFFF, 0, 32, 32, 0⟩],
  .reg 1 "RESERVED_15" (some 284) none none [],
  .reg 4 "ATCR" none (some 0x400) none [
      ⟨"EN", 0x1, 0, 1, 32, 0⟩, ⟨"OFFEN", 0x4, 2, 1, 32, 0⟩, ⟨"OFFRST", 0x8, 3, 1, 32, 0⟩,
      ⟨"PEREN", 0x10, 4, 1, 32, 0⟩, ⟨"PINPER", 0x80, 7, 1, 32, 0⟩, ⟨"RESTART", 0x200, 9, 1, 32, 0⟩,
      ⟨"CAPTURE", 0x800, 11, 1, 32, 0⟩, ⟨"SLAVE", 0x2000, 13, 1, 32, 0⟩],
  .reg 4 "ATVR" none (some 0x404) none [
      ⟨"ATIME", 0xFFFFFFFF, 0, 32, 32, 0⟩],
  .reg 4 "ATOFF" none (some 0x408) none [
      ⟨"OFFSET", 0xFFFFFFFF, 0, 32, 32, 0⟩],
  .reg 4 "ATPER" none (some 0x40C) none [
      ⟨"PERIOD", 0xFFFFFFFF, 0, 32, 32, 0⟩],
  .reg 4 "ATCOR" none (some 0x410) none [
      ⟨"COR", 0x7FFFFFFF, 0, 31, 32, 0⟩],
  .reg 4 "ATINC" none (some 0x414) none [
      ⟨"INC", 0x7F, 0, 7, 32, 0⟩, ⟨"INC_CORR", 0x7F00, 8, 7, 32, 0⟩],
  .reg 4 "ATSTMP" none (some 0x418) none [
      ⟨"TIMESTAMP", 0xFFFFFFFF, 0, 32, 32, 0⟩],
  .reg 1 "RESERVED_16" (some 488) none none [],
  .reg 4 "TGSR" none (some 0x604) none [
      ⟨"TF0", 0x1, 0, 1, 32, 0⟩, ⟨"TF1", 0x2, 1, 1, 32, 0⟩, ⟨"TF2", 0x4, 2, 1, 32, 0⟩, ⟨"TF3", 0x8, 3, 1, 32, 0⟩],
  .group false "CHANNEL" (some 4) (some 0x608) (some 0x8) [
    .reg 4 "TCSR" none (some 0x608) (some 0x8) [
        ⟨"TDRE", 0x1, 0, 1, 32, 0⟩, ⟨"TMODE", 0x3C, 2, 4, 32, 0⟩, ⟨"TIE", 0x40, 6, 1, 32, 0⟩,
        ⟨"TF", 0x80, 7, 1, 32, 0⟩],
    .reg 4 "TCCR" none (some 0x60C) (some 0x8) [
        ⟨"TCC", 0xFFFFFFFF, 0, 32, 32, 0⟩]]]

/-- `ERM_Type` and the masks of its registers, S32K148.h:4543–4554 and 4600–4638. -/
def rERM : List Member := [
  .reg 4 "CR0" none (some 0x0) none [
      ⟨"ENCIE1", 0x4000000, 26, 1, 32, 0⟩, ⟨"ESCIE1", 0x8000000, 27, 1, 32, 0⟩, ⟨"ENCIE0", 0x40000000, 30, 1, 32, 0⟩,
      ⟨"ESCIE0", 0x80000000, 31, 1, 32, 0⟩],
  .reg 1 "RESERVED_0" (some 12) none none [],
  .reg 4 "SR0" none (some 0x10) none [
      ⟨"NCE1", 0x4000000, 26, 1, 32, 0⟩, ⟨"SBC1", 0x8000000, 27, 1, 32, 0⟩, ⟨"NCE0", 0x40000000, 30, 1, 32, 0⟩,
      ⟨"SBC0", 0x80000000, 31, 1, 32, 0⟩],
  .reg 1 "RESERVED_1" (some 236) none none [],
  .group false "EARn" (some 2) (some 0x100) (some 0x10) [
    .reg 4 "EAR" none (some 0x100) (some 0x10) [
        ⟨"EAR", 0xFFFFFFFF, 0, 32, 32, 0⟩],
    .reg 1 "RESERVED_0" (some 12) none none []]]

/-- `EWM_Type` and the masks of its registers, S32K148.h:4659–4667 and 4707–4743. -/
def rEWM : List Member := [
  .reg 1 "CTRL" none (some 0x0) none [
      ⟨"EWMEN", 0x1, 0, 1, 8, 0⟩, ⟨"ASSIN", 0x2, 1, 1, 8, 0⟩, ⟨"INEN", 0x4, 2, 1, 8, 0⟩, ⟨"INTEN", 0x8, 3, 1, 8, 0⟩],
  .reg 1 "SERV" none (some 0x1) none [
      ⟨"SERVICE", 0xFF, 0, 8, 8, 0⟩],
  .reg 1 "CMPL" none (some 0x2) none [
      ⟨"COMPAREL", 0xFF, 0, 8, 8, 0⟩],
  .reg 1 "CMPH" none (some 0x3) none [
      ⟨"COMPAREH", 0xFF, 0, 8, 8, 0⟩],
  .reg 1 "RESERVED_0" (some 1) none none [],
  .reg 1 "CLKPRESCALER" none (some 0x5) none [
      ⟨"CLK_DIV", 0xFF, 0, 8, 8, 0⟩]]

/-- `FLEXIO_Type` and the masks of its registers, S32K148.h:4774–4814 and 4854–5101. -/
def rFLEXIO : List Member := [
  .reg 4 "VERID" none (some 0x0) none [
      ⟨"FEATURE", 0xFFFF, 0, 16, 32, 0⟩, ⟨"MINOR", 0xFF0000, 16, 8, 32, 0⟩, ⟨"MAJOR", 0xFF000000, 24, 8, 32, 0⟩],
  .reg 4 "PARAM" none (some 0x4) none [
      ⟨"SHIFTER", 0xFF, 0, 8, 32, 0⟩, ⟨"TIMER", 0xFF00, 8, 8, 32, 0⟩, ⟨"PIN", 0xFF0000, 16, 8, 32, 0⟩,
      ⟨"TRIGGER", 0xFF000000, 24, 8, 32, 0⟩],
  .reg 4 "CTRL" none (some 0x8) none [
      ⟨"FLEXEN", 0x1, 0, 1, 32, 0⟩, ⟨"SWRST", 0x2, 1, 1, 32, 0⟩, ⟨"FASTACC", 0x4, 2, 1, 32, 0⟩,
      ⟨"DBGE", 0x40000000, 30, 1, 32, 0⟩, ⟨"DOZEN", 0x80000000, 31, 1, 32, 0⟩],
  .reg 4 "PIN" none (some 0xC) none [
      ⟨"PDI", 0xFF, 0, 8, 32, 0⟩],
  .reg 4 "SHIFTSTAT" none (some 0x10) none [
      ⟨"SSF", 0xF, 0, 4, 32, 0⟩],
  .reg 4 "SHIFTERR" none (some 0x14) none [
      ⟨"SEF", 0xF, 0, 4, 32, 0⟩],
  .reg 4 "TIMSTAT" none (some 0x18) none [
      ⟨"TSF", 0xF, 0, 4, 32, 0⟩],
  .reg 1 "RESERVED_0" (some 4) none none [],
  .reg 4 "SHIFTSIEN" none (some 0x20) none [
      ⟨"SSIE", 0xF, 0, 4, 32, 0⟩],
  .reg 4 "SHIFTEIEN" none (some 0x24) none [
      ⟨"SEIE", 0xF, 0, 4, 32, 0⟩],
  .reg 4 "TIMIEN" none (some 0x28) none [
      ⟨"TEIE", 0xF, 0, 4, 32, 0⟩],
  .reg 1 "RESERVED_1" (some 4) none none [],
  .reg 4 "SHIFTSDEN" none (some 0x30) none [
      ⟨"SSDE", 0xF, 0, 4, 32, 0⟩],
  .reg 1 "RESERVED_2" (some 76) none none [],
  .reg 4 "SHIFTCTL" (some 4) (some 0x80) (some 0x4) [
      ⟨"SMOD", 0x7, 0, 3, 32, 0⟩, ⟨"PINPOL", 0x80, 7, 1, 32, 0⟩, ⟨"PINSEL", 0x700, 8, 3, 32, 0⟩,
      ⟨"PINCFG", 0x30000, 16, 2, 32, 0⟩, ⟨"TIMPOL", 0x800000, 23, 1, 32, 0⟩, ⟨"TIMSEL", 0x3000000, 24, 2, 32, 0⟩],
  .reg 1 "RESERVED_3" (some 112) none none [],
  .reg 4 "SHIFTCFG" (some 4) (some 0x100) (some 0x4) [
      ⟨"SSTART", 0x3, 0, 2, 32, 0⟩, ⟨"SSTOP", 0x30, 4, 2, 32, 0⟩, ⟨"INSRC", 0x100, 8, 1, 32, 0⟩],
  .reg 1 "RESERVED_4" (some 240) none none [],
  .reg 4 "SHIFTBUF" (some 4) (some 0x200) (some 0x4) [
      ⟨"SHIFTBUF", 0xFFFFFFFF, 0, 32, 32, 0⟩],
  .reg 1 "RESERVED_5" (some 112) none none [],
  .reg 4 "SHIFTBUFBIS" (some 4) (some 0x280) (some 0x4) [
      ⟨"SHIFTBUFBIS", 0xFFFFFFFF, 0, 32, 32, 0⟩],
  .reg 1 "RESERVED_6" (some 112) none none [],
  .reg 4 "SHIFTBUFBYS" (some 4) (some 0x300) (some 0x4) [
      ⟨"SHIFTBUFBYS", 0xFFFFFFFF, 0, 32, 32, 0⟩],
  .reg 1 "RESERVED_7" (some 112) none none [],
  .reg 4 "SHIFTBUFBBS" (some 4) (some 0x380) (some 0x4) [
      ⟨"SHIFTBUFBBS", 0xFFFFFFFF, 0, 32, 32, 0⟩],
  .reg 1 "RESERVED_8" (some 112) none none [],
  .reg 4 "TIMCTL" (some 4) (some 0x400) (some 0x4) [
      ⟨"TIMOD", 0x3, 0, 2, 32, 0⟩, ⟨"PINPOL", 0x80, 7, 1, 32, 0⟩, ⟨"PINSEL", 0x700, 8, 3, 32, 0⟩,
      ⟨"PINCFG", 0x30000, 16, 2, 32, 0⟩, ⟨"TRGSRC", 0x400000, 22, 1, 32, 0⟩, ⟨"TRGPOL", 0x800000, 23, 1, 32, 0⟩,
      ⟨"TRGSEL", 0xF000000, 24, 4, 32, 0⟩],
  .reg 1 "RESERVED_9" (some 112) none none [],
  .reg 4 "TIMCFG" (some 4) (some 0x480) (some 0x4) [
      ⟨"TSTART", 0x2, 1, 1, 32, 0⟩, ⟨"TSTOP", 0x30, 4, 2, 32, 0⟩, ⟨"TIMENA", 0x700, 8, 3, 32, 0⟩,
      ⟨"TIMDIS", 0x7000, 12, 3, 32, 0⟩, ⟨"TIMRST", 0x70000, 16, 3, 32, 0⟩, ⟨"TIMDEC", 0x300000, 20, 2, 32, 0⟩,
      ⟨"TIMOUT", 0x3000000, 24, 2, 32, 0⟩],
  .reg 1 "RESERVED_10" (some 112) none none [],
  .reg 4 "TIMCMP" (some 4) (some 0x500) (some 0x4) [
      ⟨"CMP", 0xFFFF, 0, 16, 32, 0⟩]]

/-- `FTFC_Type` and the masks of its registers, S32K148.h:5124–5142 and 5188–5322. -/
def rFTFC : List Member := [
  .reg 1 "FSTAT" none (some 0x0) none [
      ⟨"MGSTAT0", 0x1, 0, 1, 8, 0⟩, ⟨"FPVIOL", 0x10, 4, 1, 8, 0⟩, ⟨"ACCERR", 0x20, 5, 1, 8, 0⟩,
      ⟨"RDCOLERR", 0x40, 6, 1, 8, 0⟩, ⟨"CCIF", 0x80, 7, 1, 8, 0⟩],
  .reg 1 "FCNFG" none (some 0x1) none [
      ⟨"EEERDY", 0x1, 0, 1, 8, 0⟩, ⟨"RAMRDY", 0x2, 1, 1, 8, 0⟩, ⟨"ERSSUSP", 0x10, 4, 1, 8, 0⟩,
      ⟨"ERSAREQ", 0x20, 5, 1, 8, 0⟩, ⟨"RDCOLLIE", 0x40, 6, 1, 8, 0⟩, ⟨"CCIE", 0x80, 7, 1, 8, 0⟩],
  .reg 1 "FSEC" none (some 0x2) none [
      ⟨"SEC", 0x3, 0, 2, 8, 0⟩, ⟨"FSLACC", 0xC, 2, 2, 8, 0⟩, ⟨"MEEN", 0x30, 4, 2, 8, 0⟩, ⟨"KEYEN", 0xC0, 6, 2, 8, 0⟩],
  .reg 1 "FOPT" none (some 0x3) none [
      ⟨"OPT", 0xFF, 0, 8, 8, 0⟩],
  .reg 1 "FCCOB" (some 12) (some 0x4) (some 0x1) [
      ⟨"CCOBn", 0xFF, 0, 8, 8, 0⟩],
  .reg 1 "FPROT" (some 4) (some 0x10) (some 0x1) [
      ⟨"PROT", 0xFF, 0, 8, 8, 0⟩],
  .reg 1 "RESERVED_0" (some 2) none none [],
  .reg 1 "FEPROT" none (some 0x16) none [
      ⟨"EPROT", 0xFF, 0, 8, 8, 0⟩],
  .reg 1 "FDPROT" none (some 0x17) none [
      ⟨"DPROT", 0xFF, 0, 8, 8, 0⟩],
  .reg 1 "RESERVED_1" (some 20) none none [],
  .reg 1 "FCSESTAT" none (some 0x2C) none [
      ⟨"BSY", 0x1, 0, 1, 8, 0⟩, ⟨"SB", 0x2, 1, 1, 8, 0⟩, ⟨"BIN", 0x4, 2, 1, 8, 0⟩, ⟨"BFN", 0x8, 3, 1, 8, 0⟩,
      ⟨"BOK", 0x10, 4, 1, 8, 0⟩, ⟨"RIN", 0x20, 5, 1, 8, 0⟩, ⟨"EDB", 0x40, 6, 1, 8, 0⟩, ⟨"IDB", 0x80, 7, 1, 8, 0⟩],
  .reg 1 "RESERVED_2" (some 1) none none [],
  .reg 1 "FERSTAT" none (some 0x2E) none [
      ⟨"DFDIF", 0x2, 1, 1, 8, 0⟩],
  .reg 1 "FERCNFG" none (some 0x2F) none [
      ⟨"DFDIE", 0x2, 1, 1, 8, 0⟩, ⟨"FDFD", 0x20, 5, 1, 8, 0⟩]]

/-- `FTM_Type` and the masks of its registers, S32K148.h:5345–5387 and 5535–6527. -/
def rFTM : List Member := [
  .reg 4 "SC" none (some 0x0) none [
      ⟨"PS", 0x7, 0, 3, 32, 0⟩, ⟨"CLKS", 0x18, 3, 2, 32, 0⟩, ⟨"CPWMS", 0x20, 5, 1, 32, 0⟩,
      ⟨"RIE", 0x40, 6, 1, 32, 0⟩, ⟨"RF", 0x80, 7, 1, 32, 0⟩, ⟨"TOIE", 0x100, 8, 1, 32, 0⟩,
      ⟨"TOF", 0x200, 9, 1, 32, 0⟩, ⟨"PWMEN0", 0x10000, 16, 1, 32, 0⟩, ⟨"PWMEN1", 0x20000, 17, 1, 32, 0⟩,
      ⟨"PWMEN2", 0x40000, 18, 1, 32, 0⟩, ⟨"PWMEN3", 0x80000, 19, 1, 32, 0⟩, ⟨"PWMEN4", 0x100000, 20, 1, 32, 0⟩,
      ⟨"PWMEN5", 0x200000, 21, 1, 32, 0⟩, ⟨"PWMEN6", 0x400000, 22, 1, 32, 0⟩, ⟨"PWMEN7", 0x800000, 23, 1, 32, 0⟩,
      ⟨"FLTPS", 0xF000000, 24, 4, 32, 0⟩],
  .reg 4 "CNT" none (some 0x4) none [
      ⟨"COUNT", 0xFFFF, 0, 16, 32, 0⟩],
  .reg 4 "MOD" none (some 0x8) none [
      ⟨"MOD", 0xFFFF, 0, 16, 32, 0⟩],
  .group false "CONTROLS" (some 8) (some 0xC) (some 0x8) [
    .reg 4 "CnSC" none (some 0xC) (some 0x8) [
        ⟨"DMA", 0x1, 0, 1, 32, 0⟩, ⟨"ICRST", 0x2, 1, 1, 32, 0⟩, ⟨"ELSA", 0x4, 2, 1, 32, 0⟩,
        ⟨"ELSB", 0x8, 3, 1, 32, 0⟩, ⟨"MSA", 0x10, 4, 1, 32, 0⟩, ⟨"MSB", 0x20, 5, 1, 32, 0⟩,
        ⟨"CHIE", 0x40, 6, 1, 32, 0⟩, ⟨"CHF", 0x80, 7, 1, 32, 0⟩, ⟨"TRIGMODE", 0x100, 8, 1, 32, 0⟩,
        ⟨"CHIS", 0x200, 9, 1, 32, 0⟩, ⟨"CHOV", 0x400, 10, 1, 32, 0⟩],
    .reg 4 "CnV" none (some 0x10) (some 0x8) [
        ⟨"VAL", 0xFFFF, 0, 16, 32, 0⟩]],
  .reg 4 "CNTIN" none (some 0x4C) none [
      ⟨"INIT", 0xFFFF, 0, 16, 32, 0⟩],
  .reg 4 "STATUS" none (some 0x50) none [
      ⟨"CH0F", 0x1, 0, 1, 32, 0⟩, ⟨"CH1F", 0x2, 1, 1, 32, 0⟩, ⟨"CH2F", 0x4, 2, 1, 32, 0⟩, ⟨"CH3F", 0x8, 3, 1, 32, 0⟩,
      ⟨"CH4F", 0x10, 4, 1, 32, 0⟩, ⟨"CH5F", 0x20, 5, 1, 32, 0⟩, ⟨"CH6F", 0x40, 6, 1, 32, 0⟩,
      ⟨"CH7F", 0x80, 7, 1, 32, 0⟩],
  .reg 4 "MODE" none (some 0x54) none [
      ⟨"FTMEN", 0x1, 0, 1, 32, 0⟩, ⟨"INIT", 0x2, 1, 1, 32, 0⟩, ⟨"WPDIS", 0x4, 2, 1, 32, 0⟩,
      ⟨"PWMSYNC", 0x8, 3, 1, 32, 0⟩, ⟨"CAPTEST", 0x10, 4, 1, 32, 0⟩, ⟨"FAULTM", 0x60, 5, 2, 32, 0⟩,
      ⟨"FAULTIE", 0x80, 7, 1, 32, 0⟩],
  .reg 4 "SYNC" none (some 0x58) none [
      ⟨"CNTMIN", 0x1, 0, 1, 32, 0⟩, ⟨"CNTMAX", 0x2, 1, 1, 32, 0⟩, ⟨"REINIT", 0x4, 2, 1, 32, 0⟩,
      ⟨"SYNCHOM", 0x8, 3, 1, 32, 0⟩, ⟨"TRIG0", 0x10, 4, 1, 32, 0⟩, ⟨"TRIG1", 0x20, 5, 1, 32, 0⟩,
      ⟨"TRIG2", 0x40, 6, 1, 32, 0⟩, ⟨"SWSYNC", 0x80, 7, 1, 32, 0⟩],
  .reg 4 "OUTINIT" none (some 0x5C) none [
      ⟨"CH0OI", 0x1, 0, 1, 32, 0⟩, ⟨"CH1OI", 0x2, 1, 1, 32, 0⟩, ⟨"CH2OI", 0x4, 2, 1, 32, 0⟩,
      ⟨"CH3OI", 0x8, 3, 1, 32, 0⟩, ⟨"CH4OI", 0x10, 4, 1, 32, 0⟩, ⟨"CH5OI", 0x20, 5, 1, 32, 0⟩,
      ⟨"CH6OI", 0x40, 6, 1, 32, 0⟩, ⟨"CH7OI", 0x80, 7, 1, 32, 0⟩],
  .reg 4 "OUTMASK" none (some 0x60) none [
      ⟨"CH0OM", 0x1, 0, 1, 32, 0⟩, ⟨"CH1OM", 0x2, 1, 1, 32, 0⟩, ⟨"CH2OM", 0x4, 2, 1, 32, 0⟩,
      ⟨"CH3OM", 0x8, 3, 1, 32, 0⟩, ⟨"CH4OM", 0x10, 4, 1, 32, 0⟩, ⟨"CH5OM", 0x20, 5, 1, 32, 0⟩,
      ⟨"CH6OM", 0x40, 6, 1, 32, 0⟩, ⟨"CH7OM", 0x80, 7, 1, 32, 0⟩],
  .reg 4 "COMBINE" none (some 0x64) none [
      ⟨"COMBINE0", 0x1, 0, 1, 32, 0⟩, ⟨"COMP0", 0x2, 1, 1, 32, 0⟩, ⟨"DECAPEN0", 0x4, 2, 1, 32, 0⟩,
      ⟨"DECAP0", 0x8, 3, 1, 32, 0⟩, ⟨"DTEN0", 0x10, 4, 1, 32, 0⟩, ⟨"SYNCEN0", 0x20, 5, 1, 32, 0⟩,
      ⟨"FAULTEN0", 0x40, 6, 1, 32, 0⟩, ⟨"MCOMBINE0", 0x80, 7, 1, 32, 0⟩, ⟨"COMBINE1", 0x100, 8, 1, 32, 0⟩,
      ⟨"COMP1", 0x200, 9, 1, 32, 0⟩, ⟨"DECAPEN1", 0x400, 10, 1, 32, 0⟩, ⟨"DECAP1", 0x800, 11, 1, 32, 0⟩,
      ⟨"DTEN1", 0x1000, 12, 1, 32, 0⟩, ⟨"SYNCEN1", 0x2000, 13, 1, 32, 0⟩, ⟨"FAULTEN1", 0x4000, 14, 1, 32, 0⟩,
      ⟨"MCOMBINE1", 0x8000, 15, 1, 32, 0⟩, ⟨"COMBINE2", 0x10000, 16, 1, 32, 0⟩, ⟨"COMP2", 0x20000, 17, 1, 32, 0⟩,
      ⟨"DECAPEN2", 0x40000, 18, 1, 32, 0⟩, ⟨"DECAP2", 0x80000, 19, 1, 32, 0⟩, ⟨"DTEN2", 0x100000, 20, 1, 32, 0⟩,
      ⟨"SYNCEN2", 0x200000, 21, 1, 32, 0⟩, ⟨"FAULTEN2", 0x400000, 22, 1, 32, 0⟩,
      ⟨"MCOMBINE2", 0x800000, 23, 1, 32, 0⟩, ⟨"COMBINE3", 0x1000000, 24, 1, 32, 0⟩,
      ⟨"COMP3", 0x2000000, 25, 1, 32, 0⟩, ⟨"DECAPEN3", 0x4000000, 26, 1, 32, 0⟩, ⟨"DECAP3", 0x8000000, 27, 1, 32, 0⟩,
      ⟨"DTEN3", 0x10000000, 28, 1, 32, 0⟩, ⟨"SYNCEN3", 0x20000000, 29, 1, 32, 0⟩,
      ⟨"FAULTEN3", 0x40000000, 30, 1, 32, 0⟩, ⟨"MCOMBINE3", 0x80000000, 31, 1, 32, 0⟩],
  .reg 4 "DEADTIME" none (some 0x68) none [
      ⟨"DTVAL", 0x3F, 0, 6, 32, 0⟩, ⟨"DTPS", 0xC0, 6, 2, 32, 0⟩, ⟨"DTVALEX", 0xF0000, 16, 4, 32, 0⟩],
  .reg 4 "EXTTRIG" none (some 0x6C) none [
      ⟨"CH2TRIG", 0x1, 0, 1, 32, 0⟩, ⟨"CH3TRIG", 0x2, 1, 1, 32, 0⟩, ⟨"CH4TRIG", 0x4, 2, 1, 32, 0⟩,
      ⟨"CH5TRIG", 0x8, 3, 1, 32, 0⟩, ⟨"CH0TRIG", 0x10, 4, 1, 32, 0⟩, ⟨"CH1TRIG", 0x20, 5, 1, 32, 0⟩,
      ⟨"INITTRIGEN", 0x40, 6, 1, 32, 0⟩, ⟨"TRIGF", 0x80, 7, 1, 32, 0⟩, ⟨"CH6TRIG", 0x100, 8, 1, 32, 0⟩,
      ⟨"CH7TRIG", 0x200, 9, 1, 32, 0⟩],
  .reg 4 "POL" none (some 0x70) none [
      ⟨"POL0", 0x1, 0, 1, 32, 0⟩, ⟨"POL1", 0x2, 1, 1, 32, 0⟩, ⟨"POL2", 0x4, 2, 1, 32, 0⟩, ⟨"POL3", 0x8, 3, 1, 32, 0⟩,
      ⟨"POL4", 0x10, 4, 1, 32, 0⟩, ⟨"POL5", 0x20, 5, 1, 32, 0⟩, ⟨"POL6", 0x40, 6, 1, 32, 0⟩,
      ⟨"POL7", 0x80, 7, 1, 32, 0⟩],
  .reg 4 "FMS" none (some 0x74) none [
      ⟨"FAULTF0", 0x1, 0, 1, 32, 0⟩, ⟨"FAULTF1", 0x2, 1, 1, 32, 0⟩, ⟨"FAULTF2", 0x4, 2, 1, 32, 0⟩,
      ⟨"FAULTF3", 0x8, 3, 1, 32, 0⟩, ⟨"FAULTIN", 0x20, 5, 1, 32, 0⟩, ⟨"WPEN", 0x40, 6, 1, 32, 0⟩,
      ⟨"FAULTF", 0x80, 7, 1, 32, 0⟩],
  .reg 4 "FILTER" none (some 0x78) none [
      ⟨"CH0FVAL", 0xF, 0, 4, 32, 0⟩, ⟨"CH1FVAL", 0xF0, 4, 4, 32, 0⟩, ⟨"CH2FVAL", 0xF00, 8, 4, 32, 0⟩,
      ⟨"CH3FVAL", 0xF000, 12, 4, 32, 0⟩],
  .reg 4 "FLTCTRL" none (some 0x7C) none [
      ⟨"FAULT0EN", 0x1, 0, 1, 32, 0⟩, ⟨"FAULT1EN", 0x2, 1, 1, 32, 0⟩, ⟨"FAULT2EN", 0x4, 2, 1, 32, 0⟩,
      ⟨"FAULT3EN", 0x8, 3, 1, 32, 0⟩, ⟨"FFLTR0EN", 0x10, 4, 1, 32, 0⟩, ⟨"FFLTR1EN", 0x20, 5, 1, 32, 0⟩,
      ⟨"FFLTR2EN", 0x40, 6, 1, 32, 0⟩, ⟨"FFLTR3EN", 0x80, 7, 1, 32, 0⟩, ⟨"FFVAL", 0xF00, 8, 4, 32, 0⟩,
      ⟨"FSTATE", 0x8000, 15, 1, 32, 0⟩],
  .reg 4 "QDCTRL" none (some 0x80) none [
      ⟨"QUADEN", 0x1, 0, 1, 32, 0⟩, ⟨"TOFDIR", 0x2, 1, 1, 32, 0⟩, ⟨"QUADIR", 0x4, 2, 1, 32, 0⟩,
      ⟨"QUADMODE", 0x8, 3, 1, 32, 0⟩, ⟨"PHBPOL", 0x10, 4, 1, 32, 0⟩, ⟨"PHAPOL", 0x20, 5, 1, 32, 0⟩,
      ⟨"PHBFLTREN", 0x40, 6, 1, 32, 0⟩, ⟨"PHAFLTREN", 0x80, 7, 1, 32, 0⟩],
  .reg 4 "CONF" none (some 0x84) none [
      ⟨"LDFQ", 0x1F, 0, 5, 32, 0⟩, ⟨"BDMMODE", 0xC0, 6, 2, 32, 0⟩, ⟨"GTBEEN", 0x200, 9, 1, 32, 0⟩,
      ⟨"GTBEOUT", 0x400, 10, 1, 32, 0⟩, ⟨"ITRIGR", 0x800, 11, 1, 32, 0⟩],
  .reg 4 "FLTPOL" none (some 0x88) none [
      ⟨"FLT0POL", 0x1, 0, 1, 32, 0⟩, ⟨"FLT1POL", 0x2, 1, 1, 32, 0⟩, ⟨"FLT2POL", 0x4, 2, 1, 32, 0⟩,
      ⟨"FLT3POL", 0x8, 3, 1, 32, 0⟩],
  .reg 4 "SYNCONF" none (some 0x8C) none [
      ⟨"HWTRIGMODE", 0x1, 0, 1, 32, 0⟩, ⟨"CNTINC", 0x4, 2, 1, 32, 0⟩, ⟨"INVC", 0x10, 4, 1, 32, 0⟩,
      ⟨"SWOC", 0x20, 5, 1, 32, 0⟩, ⟨"SYNCMODE", 0x80, 7, 1, 32, 0⟩, ⟨"SWRSTCNT", 0x100, 8, 1, 32, 0⟩,
      ⟨"SWWRBUF", 0x200, 9, 1, 32, 0⟩, ⟨"SWOM", 0x400, 10, 1, 32, 0⟩, ⟨"SWINVC", 0x800, 11, 1, 32, 0⟩,
      ⟨"SWSOC", 0x1000, 12, 1, 32, 0⟩, ⟨"HWRSTCNT", 0x10000, 16, 1, 32, 0⟩, ⟨"HWWRBUF", 0x20000, 17, 1, 32, 0⟩,
      ⟨"HWOM", 0x40000, 18, 1, 32, 0⟩, ⟨"HWINVC", 0x80000, 19, 1, 32, 0⟩, ⟨"HWSOC", 0x100000, 20, 1, 32, 0⟩],
  .reg 4 "INVCTRL" none (some 0x90) none [
      ⟨"INV0EN", 0x1, 0, 1, 32, 0⟩, ⟨"INV1EN", 0x2, 1, 1, 32, 0⟩, ⟨"INV2EN", 0x4, 2, 1, 32, 0⟩,
      ⟨"INV3EN", 0x8, 3, 1, 32, 0⟩],
  .reg 4 "SWOCTRL" none (some 0x94) none [
      ⟨"CH0OC", 0x1, 0, 1, 32, 0⟩, ⟨"CH1OC", 0x2, 1, 1, 32, 0⟩, ⟨"CH2OC", 0x4, 2, 1, 32, 0⟩,
      ⟨"CH3OC", 0x8, 3, 1, 32, 0⟩, ⟨"CH4OC", 0x10, 4, 1, 32, 0⟩, ⟨"CH5OC", 0x20, 5, 1, 32, 0⟩,
      ⟨"CH6OC", 0x40, 6, 1, 32, 0⟩, ⟨"CH7OC", 0x80, 7, 1, 32, 0⟩, ⟨"CH0OCV", 0x100, 8, 1, 32, 0⟩,
      ⟨"CH1OCV", 0x200, 9, 1, 32, 0⟩, ⟨"CH2OCV", 0x400, 10, 1, 32, 0⟩, ⟨"CH3OCV", 0x800, 11, 1, 32, 0⟩,
      ⟨"CH4OCV", 0x1000, 12, 1, 32, 0⟩, ⟨"CH5OCV", 0x2000, 13, 1, 32, 0⟩, ⟨"CH6OCV", 0x4000, 14, 1, 32, 0⟩,
      ⟨"CH7OCV", 0x8000, 15, 1, 32, 0⟩],
  .reg 4 "PWMLOAD" none (some 0x98) none [
      ⟨"CH0SEL", 0x1, 0, 1, 32, 0⟩, ⟨"CH1SEL", 0x2, 1, 1, 32, 0⟩, ⟨"CH2SEL", 0x4, 2, 1, 32, 0⟩,
      ⟨"CH3SEL", 0x8, 3, 1, 32, 0⟩, ⟨"CH4SEL", 0x10, 4, 1, 32, 0⟩, ⟨"CH5SEL", 0x20, 5, 1, 32, 0⟩,
      ⟨"CH6SEL", 0x40, 6, 1, 32, 0⟩, ⟨"CH7SEL", 0x80, 7, 1, 32, 0⟩, ⟨"HCSEL", 0x100, 8, 1, 32, 0⟩,
      ⟨"LDOK", 0x200, 9, 1, 32, 0⟩, ⟨"GLEN", 0x400, 10, 1, 32, 0⟩, ⟨"GLDOK", 0x800, 11, 1, 32, 0⟩],
  .reg 4 "HCR" none (some 0x9C) none [
      ⟨"HCVAL", 0xFFFF, 0, 16, 32, 0⟩],
  .reg 4 "PAIR0DEADTIME" none (some 0xA0) none [
      ⟨"DTVAL", 0x3F, 0, 6, 32, 0⟩, ⟨"DTPS", 0xC0, 6, 2, 32, 0⟩, ⟨"DTVALEX", 0xF0000, 16, 4, 32, 0⟩],
  .reg 1 "RESERVED_0" (some 4) none none [],
  .reg 4 "PAIR1DEADTIME" none (some 0xA8) none [
      ⟨"DTVAL", 0x3F, 0, 6, 32, 0⟩, ⟨"DTPS", 0xC0, 6, 2, 32, 0⟩, ⟨"DTVALEX", 0xF0000, 16, 4, 32, 0⟩],
  .reg 1 "RESERVED_1" (some 4) none none [],
  .reg 4 "PAIR2DEADTIME" none (some 0xB0) none [
      ⟨"DTVAL", 0x3F, 0, 6, 32, 0⟩, ⟨"DTPS", 0xC0, 6, 2, 32, 0⟩, ⟨"DTVALEX", 0xF0000, 16, 4, 32, 0⟩],
  .reg 1 "RESERVED_2" (some 4) none none [],
  .reg 4 "PAIR3DEADTIME" none (some 0xB8) none [
      ⟨"DTVAL", 0x3F, 0, 6, 32, 0⟩, ⟨"DTPS", 0xC0, 6, 2, 32, 0⟩, ⟨"DTVALEX", 0xF0000, 16, 4, 32, 0⟩],
  .reg 1 "RESERVED_3" (some 324) none none [],
  .reg 4 "MOD_MIRROR" none (some 0x200) none [
      ⟨"FRACMOD", 0xF800, 11, 5, 32, 0⟩, ⟨"MOD", 0xFFFF0000, 16, 16, 32, 0⟩],
  .reg 4 "CV_MIRROR" (some 8) (some 0x204) (some 0x4) [
      ⟨"FRACVAL", 0xF800, 11, 5, 32, 0⟩, ⟨"VAL", 0xFFFF0000, 16, 16, 32, 0⟩]]

/-- `GPIO_Type` and the masks of its registers, S32K148.h:6548–6557 and 6604–6638. -/
def rGPIO : List Member := [
  .reg 4 "PDOR" none (some 0x0) none [
      ⟨"PDO", 0xFFFFFFFF, 0, 32, 32, 0⟩],
  .reg 4 "PSOR" none (some 0x4) none [
      ⟨"PTSO", 0xFFFFFFFF, 0, 32, 32, 0⟩],
  .reg 4 "PCOR" none (some 0x8) none [
      ⟨"PTCO", 0xFFFFFFFF, 0, 32, 32, 0⟩],
  .reg 4 "PTOR" none (some 0xC) none [
      ⟨"PTTO", 0xFFFFFFFF, 0, 32, 32, 0⟩],
  .reg 4 "PDIR" none (some 0x10) none [
      ⟨"PDI", 0xFFFFFFFF, 0, 32, 32, 0⟩],
  .reg 4 "PDDR" none (some 0x14) none [
      ⟨"PDD", 0xFFFFFFFF, 0, 32, 32, 0⟩],
  .reg 4 "PIDR" none (some 0x18) none [
      ⟨"PID", 0xFFFFFFFF, 0, 32, 32, 0⟩]]

/-- `LMEM_Type` and the masks of its registers, S32K148.h:6659–6667 and 6698–6852. -/
def rLMEM : List Member := [
  .reg 4 "PCCCR" none (some 0x0) none [
      ⟨"ENCACHE", 0x1, 0, 1, 32, 0⟩, ⟨"PCCR2", 0x4, 2, 1, 32, 0⟩, ⟨"PCCR3", 0x8, 3, 1, 32, 0⟩,
      ⟨"INVW0", 0x1000000, 24, 1, 32, 0⟩, ⟨"PUSHW0", 0x2000000, 25, 1, 32, 0⟩, ⟨"INVW1", 0x4000000, 26, 1, 32, 0⟩,
      ⟨"PUSHW1", 0x8000000, 27, 1, 32, 0⟩, ⟨"GO", 0x80000000, 31, 1, 32, 0⟩],
  .reg 4 "PCCLCR" none (some 0x4) none [
      ⟨"LGO", 0x1, 0, 1, 32, 0⟩, ⟨"CACHEADDR", 0x3FFC, 2, 12, 32, 0⟩, ⟨"WSEL", 0x4000, 14, 1, 32, 0⟩,
      ⟨"TDSEL", 0x10000, 16, 1, 32, 0⟩, ⟨"LCIVB", 0x100000, 20, 1, 32, 0⟩, ⟨"LCIMB", 0x200000, 21, 1, 32, 0⟩,
      ⟨"LCWAY", 0x400000, 22, 1, 32, 0⟩, ⟨"LCMD", 0x3000000, 24, 2, 32, 0⟩, ⟨"LADSEL", 0x4000000, 26, 1, 32, 0⟩,
      ⟨"LACC", 0x8000000, 27, 1, 32, 0⟩],
  .reg 4 "PCCSAR" none (some 0x8) none [
      ⟨"LGO", 0x1, 0, 1, 32, 0⟩, ⟨"PHYADDR", 0xFFFFFFFC, 2, 30, 32, 0⟩],
  .reg 4 "PCCCVR" none (some 0xC) none [
      ⟨"DATA", 0xFFFFFFFF, 0, 32, 32, 0⟩],
  .reg 1 "RESERVED_0" (some 16) none none [],
  .reg 4 "PCCRMR" none (some 0x20) none [
      ⟨"R15", 0x3, 0, 2, 32, 0⟩, ⟨"R14", 0xC, 2, 2, 32, 0⟩, ⟨"R13", 0x30, 4, 2, 32, 0⟩, ⟨"R12", 0xC0, 6, 2, 32, 0⟩,
      ⟨"R11", 0x300, 8, 2, 32, 0⟩, ⟨"R10", 0xC00, 10, 2, 32, 0⟩, ⟨"R9", 0x3000, 12, 2, 32, 0⟩,
      ⟨"R8", 0xC000, 14, 2, 32, 0⟩, ⟨"R7", 0x30000, 16, 2, 32, 0⟩, ⟨"R6", 0xC0000, 18, 2, 32, 0⟩,
      ⟨"R5", 0x300000, 20, 2, 32, 0⟩, ⟨"R4", 0xC00000, 22, 2, 32, 0⟩, ⟨"R3", 0x3000000, 24, 2, 32, 0⟩,
      ⟨"R2", 0xC000000, 26, 2, 32, 0⟩, ⟨"R1", 0x30000000, 28, 2, 32, 0⟩, ⟨"R0", 0xC0000000, 30, 2, 32, 0⟩]]

/-- `LPI2C_Type` and the masks of its registers, S32K148.h:6873–6915 and 6965–7510. -/
def rLPI2C : List Member := [
  .reg 4 "VERID" none (some 0x0) none [
      ⟨"FEATURE", 0xFFFF, 0, 16, 32, 0⟩, ⟨"MINOR", 0xFF0000, 16, 8, 32, 0⟩, ⟨"MAJOR", 0xFF000000, 24, 8, 32, 0⟩],
  .reg 4 "PARAM" none (some 0x4) none [
      ⟨"MTXFIFO", 0xF, 0, 4, 32, 0⟩, ⟨"MRXFIFO", 0xF00, 8, 4, 32, 0⟩],
  .reg 1 "RESERVED_0" (some 8) none none [],
  .reg 4 "MCR" none (some 0x10) none [
      ⟨"MEN", 0x1, 0, 1, 32, 0⟩, ⟨"RST", 0x2, 1, 1, 32, 0⟩, ⟨"DOZEN", 0x4, 2, 1, 32, 0⟩, ⟨"DBGEN", 0x8, 3, 1, 32, 0⟩,
      ⟨"RTF", 0x100, 8, 1, 32, 0⟩, ⟨"RRF", 0x200, 9, 1, 32, 0⟩],
  .reg 4 "MSR" none (some 0x14) none [
      ⟨"TDF", 0x1, 0, 1, 32, 0⟩, ⟨"RDF", 0x2, 1, 1, 32, 0⟩, ⟨"EPF", 0x100, 8, 1, 32, 0⟩, ⟨"SDF", 0x200, 9, 1, 32, 0⟩,
      ⟨"NDF", 0x400, 10, 1, 32, 0⟩, ⟨"ALF", 0x800, 11, 1, 32, 0⟩, ⟨"FEF", 0x1000, 12, 1, 32, 0⟩,
      ⟨"PLTF", 0x2000, 13, 1, 32, 0⟩, ⟨"DMF", 0x4000, 14, 1, 32, 0⟩, ⟨"MBF", 0x1000000, 24, 1, 32, 0⟩,
      ⟨"BBF", 0x2000000, 25, 1, 32, 0⟩],
  .reg 4 "MIER" none (some 0x18) none [
      ⟨"TDIE", 0x1, 0, 1, 32, 0⟩, ⟨"RDIE", 0x2, 1, 1, 32, 0⟩, ⟨"EPIE", 0x100, 8, 1, 32, 0⟩,
      ⟨"SDIE", 0x200, 9, 1, 32, 0⟩, ⟨"NDIE", 0x400, 10, 1, 32, 0⟩, ⟨"ALIE", 0x800, 11, 1, 32, 0⟩,
      ⟨"FEIE", 0x1000, 12, 1, 32, 0⟩, ⟨"PLTIE", 0x2000, 13, 1, 32, 0⟩, ⟨"DMIE", 0x4000, 14, 1, 32, 0⟩],
  .reg 4 "MDER" none (some 0x1C) none [
      ⟨"TDDE", 0x1, 0, 1, 32, 0⟩, ⟨"RDDE", 0x2, 1, 1, 32, 0⟩],
  .reg 4 "MCFGR0" none (some 0x20) none [
      ⟨"HREN", 0x1, 0, 1, 32, 0⟩, ⟨"HRPOL", 0x2, 1, 1, 32, 0⟩, ⟨"HRSEL", 0x4, 2, 1, 32, 0⟩,
      ⟨"CIRFIFO", 0x100, 8, 1, 32, 0⟩, ⟨"RDMO", 0x200, 9, 1, 32, 0⟩],
  .reg 4 "MCFGR1" none (some 0x24) none [
      ⟨"PRESCALE", 0x7, 0, 3, 32, 0⟩, ⟨"AUTOSTOP", 0x100, 8, 1, 32, 0⟩, ⟨"IGNACK", 0x200, 9, 1, 32, 0⟩,
      ⟨"TIMECFG", 0x400, 10, 1, 32, 0⟩, ⟨"MATCFG", 0x70000, 16, 3, 32, 0⟩, ⟨"PINCFG", 0x7000000, 24, 3, 32, 0⟩],
  .reg 4 "MCFGR2" none (some 0x28) none [
      ⟨"BUSIDLE", 0xFFF, 0, 12, 32, 0⟩, ⟨"FILTSCL", 0xF0000, 16, 4, 32, 0⟩, ⟨"FILTSDA", 0xF000000, 24, 4, 32, 0⟩],
  .reg 4 "MCFGR3" none (some 0x2C) none [
      ⟨"PINLOW", 0xFFF00, 8, 12, 32, 0⟩],
  .reg 1 "RESERVED_1" (some 16) none none [],
  .reg 4 "MDMR" none (some 0x40) none [
      ⟨"MATCH0", 0xFF, 0, 8, 32, 0⟩, ⟨"MATCH1", 0xFF0000, 16, 8, 32, 0⟩],
  .reg 1 "RESERVED_2" (some 4) none none [],
  .reg 4 "MCCR0" none (some 0x48) none [
      ⟨"CLKLO", 0x3F, 0, 6, 32, 0⟩, ⟨"CLKHI", 0x3F00, 8, 6, 32, 0⟩, ⟨"SETHOLD", 0x3F0000, 16, 6, 32, 0⟩,
      ⟨"DATAVD", 0x3F000000, 24, 6, 32, 0⟩],
  .reg 1 "RESERVED_3" (some 4) none none [],
  .reg 4 "MCCR1" none (some 0x50) none [
      ⟨"CLKLO", 0x3F, 0, 6, 32, 0⟩, ⟨"CLKHI", 0x3F00, 8, 6, 32, 0⟩, ⟨"SETHOLD", 0x3F0000, 16, 6, 32, 0⟩,
      ⟨"DATAVD", 0x3F000000, 24, 6, 32, 0⟩],
  .reg 1 "RESERVED_4" (some 4) none none [],
  .reg 4 "MFCR" none (some 0x58) none [
      ⟨"TXWATER", 0x3, 0, 2, 32, 0⟩, ⟨"RXWATER", 0x30000, 16, 2, 32, 0⟩],
  .reg 4 "MFSR" none (some 0x5C) none [
      ⟨"TXCOUNT", 0x7, 0, 3, 32, 0⟩, ⟨"RXCOUNT", 0x70000, 16, 3, 32, 0⟩],
  .reg 4 "MTDR" none (some 0x60) none [
      ⟨"DATA", 0xFF, 0, 8, 32, 0⟩, ⟨"CMD", 0x700, 8, 3, 32, 0⟩],
  .reg 1 "RESERVED_5" (some 12) none none [],
  .reg 4 "MRDR" none (some 0x70) none [
      ⟨"DATA", 0xFF, 0, 8, 32, 0⟩, ⟨"RXEMPTY", 0x4000, 14, 1, 32, 0⟩],
  .reg 1 "RESERVED_6" (some 156) none none [],
  .reg 4 "SCR" none (some 0x110) none [
      ⟨"SEN", 0x1, 0, 1, 32, 0⟩, ⟨"RST", 0x2, 1, 1, 32, 0⟩, ⟨"FILTEN", 0x10, 4, 1, 32, 0⟩,
      ⟨"FILTDZ", 0x20, 5, 1, 32, 0⟩],
  .reg 4 "SSR" none (some 0x114) none [
      ⟨"TDF", 0x1, 0, 1, 32, 0⟩, ⟨"RDF", 0x2, 1, 1, 32, 0⟩, ⟨"AVF", 0x4, 2, 1, 32, 0⟩, ⟨"TAF", 0x8, 3, 1, 32, 0⟩,
      ⟨"RSF", 0x100, 8, 1, 32, 0⟩, ⟨"SDF", 0x200, 9, 1, 32, 0⟩, ⟨"BEF", 0x400, 10, 1, 32, 0⟩,
      ⟨"FEF", 0x800, 11, 1, 32, 0⟩, ⟨"AM0F", 0x1000, 12, 1, 32, 0⟩, ⟨"AM1F", 0x2000, 13, 1, 32, 0⟩,
      ⟨"GCF", 0x4000, 14, 1, 32, 0⟩, ⟨"SARF", 0x8000, 15, 1, 32, 0⟩, ⟨"SBF", 0x1000000, 24, 1, 32, 0⟩,
      ⟨"BBF", 0x2000000, 25, 1, 32, 0⟩],
  .reg 4 "SIER" none (some 0x118) none [
      ⟨"TDIE", 0x1, 0, 1, 32, 0⟩, ⟨"RDIE", 0x2, 1, 1, 32, 0⟩, ⟨"AVIE", 0x4, 2, 1, 32, 0⟩, ⟨"TAIE", 0x8, 3, 1, 32, 0⟩,
      ⟨"RSIE", 0x100, 8, 1, 32, 0⟩, ⟨"SDIE", 0x200, 9, 1, 32, 0⟩, ⟨"BEIE", 0x400, 10, 1, 32, 0⟩,
      ⟨"FEIE", 0x800, 11, 1, 32, 0⟩, ⟨"AM0IE", 0x1000, 12, 1, 32, 0⟩, ⟨"AM1F", 0x2000, 13, 1, 32, 0⟩,
      ⟨"GCIE", 0x4000, 14, 1, 32, 0⟩, ⟨"SARIE", 0x8000, 15, 1, 32, 0⟩],
  .reg 4 "SDER" none (some 0x11C) none [
      ⟨"TDDE", 0x1, 0, 1, 32, 0⟩, ⟨"RDDE", 0x2, 1, 1, 32, 0⟩, ⟨"AVDE", 0x4, 2, 1, 32, 0⟩],
  .reg 1 "RESERVED_7" (some 4) none none [],
  .reg 4 "SCFGR1" none (some 0x124) none [
      ⟨"ADRSTALL", 0x1, 0, 1, 32, 0⟩, ⟨"RXSTALL", 0x2, 1, 1, 32, 0⟩, ⟨"TXDSTALL", 0x4, 2, 1, 32, 0⟩,
      ⟨"ACKSTALL", 0x8, 3, 1, 32, 0⟩, ⟨"GCEN", 0x100, 8, 1, 32, 0⟩, ⟨"SAEN", 0x200, 9, 1, 32, 0⟩,
      ⟨"TXCFG", 0x400, 10, 1, 32, 0⟩, ⟨"RXCFG", 0x800, 11, 1, 32, 0⟩, ⟨"IGNACK", 0x1000, 12, 1, 32, 0⟩,
      ⟨"HSMEN", 0x2000, 13, 1, 32, 0⟩, ⟨"ADDRCFG", 0x70000, 16, 3, 32, 0⟩],
  .reg 4 "SCFGR2" none (some 0x128) none [
      ⟨"CLKHOLD", 0xF, 0, 4, 32, 0⟩, ⟨"DATAVD", 0x3F00, 8, 6, 32, 0⟩, ⟨"FILTSCL", 0xF0000, 16, 4, 32, 0⟩,
      ⟨"FILTSDA", 0xF000000, 24, 4, 32, 0⟩],
  .reg 1 "RESERVED_8" (some 20) none none [],
  .reg 4 "SAMR" none (some 0x140) none [
      ⟨"ADDR0", 0x7FE, 1, 10, 32, 0⟩, ⟨"ADDR1", 0x7FE0000, 17, 10, 32, 0⟩],
  .reg 1 "RESERVED_9" (some 12) none none [],
  .reg 4 "SASR" none (some 0x150) none [
      ⟨"RADDR", 0x7FF, 0, 11, 32, 0⟩, ⟨"ANV", 0x4000, 14, 1, 32, 0⟩],
  .reg 4 "STAR" none (some 0x154) none [
      ⟨"TXNACK", 0x1, 0, 1, 32, 0⟩],
  .reg 1 "RESERVED_10" (some 8) none none [],
  .reg 4 "STDR" none (some 0x160) none [
      ⟨"DATA", 0xFF, 0, 8, 32, 0⟩],
  .reg 1 "RESERVED_11" (some 12) none none [],
  .reg 4 "SRDR" none (some 0x170) none [
      ⟨"DATA", 0xFF, 0, 8, 32, 0⟩, ⟨"RXEMPTY", 0x4000, 14, 1, 32, 0⟩, ⟨"SOF", 0x8000, 15, 1, 32, 0⟩]]

/-- `LPIT_Type` and the masks of its registers, S32K148.h:7532–7549 and 7589–7756. -/
def rLPIT : List Member := [
  .reg 4 "VERID" none (some 0x0) none [
      ⟨"FEATURE", 0xFFFF, 0, 16, 32, 0⟩, ⟨"MINOR", 0xFF0000, 16, 8, 32, 0⟩, ⟨"MAJOR", 0xFF000000, 24, 8, 32, 0⟩],
  .reg 4 "PARAM" none (some 0x4) none [
      ⟨"CHANNEL", 0xFF, 0, 8, 32, 0⟩, ⟨"EXT_TRIG", 0xFF00, 8, 8, 32, 0⟩],
  .reg 4 "MCR" none (some 0x8) none [
      ⟨"M_CEN", 0x1, 0, 1, 32, 0⟩, ⟨"SW_RST", 0x2, 1, 1, 32, 0⟩, ⟨"DOZE_EN", 0x4, 2, 1, 32, 0⟩,
      ⟨"DBG_EN", 0x8, 3, 1, 32, 0⟩],
  .reg 4 "MSR" none (some 0xC) none [
      ⟨"TIF0", 0x1, 0, 1, 32, 0⟩, ⟨"TIF1", 0x2, 1, 1, 32, 0⟩, ⟨"TIF2", 0x4, 2, 1, 32, 0⟩, ⟨"TIF3", 0x8, 3, 1, 32, 0⟩],
  .reg 4 "MIER" none (some 0x10) none [
      ⟨"TIE0", 0x1, 0, 1, 32, 0⟩, ⟨"TIE1", 0x2, 1, 1, 32, 0⟩, ⟨"TIE2", 0x4, 2, 1, 32, 0⟩, ⟨"TIE3", 0x8, 3, 1, 32, 0⟩],
  .reg 4 "SETTEN" none (some 0x14) none [
      ⟨"SET_T_EN_0", 0x1, 0, 1, 32, 0⟩, ⟨"SET_T_EN_1", 0x2, 1, 1, 32, 0⟩, ⟨"SET_T_EN_2", 0x4, 2, 1, 32, 0⟩,
      ⟨"SET_T_EN_3", 0x8, 3, 1, 32, 0⟩],
  .reg 4 "CLRTEN" none (some 0x18) none [
      ⟨"CLR_T_EN_0", 0x1, 0, 1, 32, 0⟩, ⟨"CLR_T_EN_1", 0x2, 1, 1, 32, 0⟩, ⟨"CLR_T_EN_2", 0x4, 2, 1, 32, 0⟩,
      ⟨"CLR_T_EN_3", 0x8, 3, 1, 32, 0⟩],
  .reg 1 "RESERVED_0" (some 4) none none [],
  .group false "TMR" (some 4) (some 0x20) (some 0x10) [
    .reg 4 "TVAL" none (some 0x20) (some 0x10) [
        ⟨"TMR_VAL", 0xFFFFFFFF, 0, 32, 32, 0⟩],
    .reg 4 "CVAL" none (some 0x24) (some 0x10) [
        ⟨"TMR_CUR_VAL", 0xFFFFFFFF, 0, 32, 32, 0⟩],
    .reg 4 "TCTRL" none (some 0x28) (some 0x10) [
        ⟨"T_EN", 0x1, 0, 1, 32, 0⟩, ⟨"CHAIN", 0x2, 1, 1, 32, 0⟩, ⟨"MODE", 0xC, 2, 2, 32, 0⟩,
        ⟨"TSOT", 0x10000, 16, 1, 32, 0⟩, ⟨"TSOI", 0x20000, 17, 1, 32, 0⟩, ⟨"TROT", 0x40000, 18, 1, 32, 0⟩,
        ⟨"TRG_SRC", 0x800000, 23, 1, 32, 0⟩, ⟨"TRG_SEL", 0xF000000, 24, 4, 32, 0⟩],
    .reg 1 "RESERVED_0" (some 4) none none []]]

/-- `LPSPI_Type` and the masks of its registers, S32K148.h:7778–7802 and 7850–8150. -/
def rLPSPI : List Member := [
  .reg 4 "VERID" none (some 0x0) none [
      ⟨"FEATURE", 0xFFFF, 0, 16, 32, 0⟩, ⟨"MINOR", 0xFF0000, 16, 8, 32, 0⟩, ⟨"MAJOR", 0xFF000000, 24, 8, 32, 0⟩],
  .reg 4 "PARAM" none (some 0x4) none [
      ⟨"TXFIFO", 0xFF, 0, 8, 32, 0⟩, ⟨"RXFIFO", 0xFF00, 8, 8, 32, 0⟩],
  .reg 1 "RESERVED_0" (some 8) none none [],
  .reg 4 "CR" none (some 0x10) none [
      ⟨"MEN", 0x1, 0, 1, 32, 0⟩, ⟨"RST", 0x2, 1, 1, 32, 0⟩, ⟨"DOZEN", 0x4, 2, 1, 32, 0⟩, ⟨"DBGEN", 0x8, 3, 1, 32, 0⟩,
      ⟨"RTF", 0x100, 8, 1, 32, 0⟩, ⟨"RRF", 0x200, 9, 1, 32, 0⟩],
  .reg 4 "SR" none (some 0x14) none [
      ⟨"TDF", 0x1, 0, 1, 32, 0⟩, ⟨"RDF", 0x2, 1, 1, 32, 0⟩, ⟨"WCF", 0x100, 8, 1, 32, 0⟩, ⟨"FCF", 0x200, 9, 1, 32, 0⟩,
      ⟨"TCF", 0x400, 10, 1, 32, 0⟩, ⟨"TEF", 0x800, 11, 1, 32, 0⟩, ⟨"REF", 0x1000, 12, 1, 32, 0⟩,
      ⟨"DMF", 0x2000, 13, 1, 32, 0⟩, ⟨"MBF", 0x1000000, 24, 1, 32, 0⟩],
  .reg 4 "IER" none (some 0x18) none [
      ⟨"TDIE", 0x1, 0, 1, 32, 0⟩, ⟨"RDIE", 0x2, 1, 1, 32, 0⟩, ⟨"WCIE", 0x100, 8, 1, 32, 0⟩,
      ⟨"FCIE", 0x200, 9, 1, 32, 0⟩, ⟨"TCIE", 0x400, 10, 1, 32, 0⟩, ⟨"TEIE", 0x800, 11, 1, 32, 0⟩,
      ⟨"REIE", 0x1000, 12, 1, 32, 0⟩, ⟨"DMIE", 0x2000, 13, 1, 32, 0⟩],
  .reg 4 "DER" none (some 0x1C) none [
      ⟨"TDDE", 0x1, 0, 1, 32, 0⟩, ⟨"RDDE", 0x2, 1, 1, 32, 0⟩],
  .reg 4 "CFGR0" none (some 0x20) none [
      ⟨"HREN", 0x1, 0, 1, 32, 0⟩, ⟨"HRPOL", 0x2, 1, 1, 32, 0⟩, ⟨"HRSEL", 0x4, 2, 1, 32, 0⟩,
      ⟨"CIRFIFO", 0x100, 8, 1, 32, 0⟩, ⟨"RDMO", 0x200, 9, 1, 32, 0⟩],
  .reg 4 "CFGR1" none (some 0x24) none [
      ⟨"MASTER", 0x1, 0, 1, 32, 0⟩, ⟨"SAMPLE", 0x2, 1, 1, 32, 0⟩, ⟨"AUTOPCS", 0x4, 2, 1, 32, 0⟩,
      ⟨"NOSTALL", 0x8, 3, 1, 32, 0⟩, ⟨"PCSPOL", 0xF00, 8, 4, 32, 0⟩, ⟨"MATCFG", 0x70000, 16, 3, 32, 0⟩,
      ⟨"PINCFG", 0x3000000, 24, 2, 32, 0⟩, ⟨"OUTCFG", 0x4000000, 26, 1, 32, 0⟩, ⟨"PCSCFG", 0x8000000, 27, 1, 32, 0⟩],
  .reg 1 "RESERVED_1" (some 8) none none [],
  .reg 4 "DMR0" none (some 0x30) none [
      ⟨"MATCH0", 0xFFFFFFFF, 0, 32, 32, 0⟩],
  .reg 4 "DMR1" none (some 0x34) none [
      ⟨"MATCH1", 0xFFFFFFFF, 0, 32, 32, 0⟩],
  .reg 1 "RESERVED_2" (some 8) none none [],
  .reg 4 "CCR" none (some 0x40) none [
      ⟨"SCKDIV", 0xFF, 0, 8, 32, 0⟩, ⟨"DBT", 0xFF00, 8, 8, 32, 0⟩, ⟨"PCSSCK", 0xFF0000, 16, 8, 32, 0⟩,
      ⟨"SCKPCS", 0xFF000000, 24, 8, 32, 0⟩],
  .reg 1 "RESERVED_3" (some 20) none none [],
  .reg 4 "FCR" none (some 0x58) none [
      ⟨"TXWATER", 0x3, 0, 2, 32, 0⟩, ⟨"RXWATER", 0x30000, 16, 2, 32, 0⟩],
  .reg 4 "FSR" none (some 0x5C) none [
      ⟨"TXCOUNT", 0x7, 0, 3, 32, 0⟩, ⟨"RXCOUNT", 0x70000, 16, 3, 32, 0⟩],
  .reg 4 "TCR" none (some 0x60) none [
      ⟨"FRAMESZ", 0xFFF, 0, 12, 32, 0⟩, ⟨"WIDTH", 0x30000, 16, 2, 32, 0⟩, ⟨"TXMSK", 0x40000, 18, 1, 32, 0⟩,
      ⟨"RXMSK", 0x80000, 19, 1, 32, 0⟩, ⟨"CONTC", 0x100000, 20, 1, 32, 0⟩, ⟨"CONT", 0x200000, 21, 1, 32, 0⟩,
      ⟨"BYSW", 0x400000, 22, 1, 32, 0⟩, ⟨"LSBF", 0x800000, 23, 1, 32, 0⟩, ⟨"PCS", 0x3000000, 24, 2, 32, 0⟩,
      ⟨"PRESCALE", 0x38000000, 27, 3, 32, 0⟩, ⟨"CPHA", 0x40000000, 30, 1, 32, 0⟩, ⟨"CPOL", 0x80000000, 31, 1, 32, 0⟩],
  .reg 4 "TDR" none (some 0x64) none [
      ⟨"DATA", 0xFFFFFFFF, 0, 32, 32, 0⟩],
  .reg 1 "RESERVED_4" (some 8) none none [],
  .reg 4 "RSR" none (some 0x70) none [
      ⟨"SOF", 0x1, 0, 1, 32, 0⟩, ⟨"RXEMPTY", 0x2, 1, 1, 32, 0⟩],
  .reg 4 "RDR" none (some 0x74) none [
      ⟨"DATA", 0xFFFFFFFF, 0, 32, 32, 0⟩]]

/-- `LPTMR_Type` and the masks of its registers, S32K148.h:8171–8177 and 8217–8272. -/
def rLPTMR : List Member := [
  .reg 4 "CSR" none (some 0x0) none [
      ⟨"TEN", 0x1, 0, 1, 32, 0⟩, ⟨"TMS", 0x2, 1, 1, 32, 0⟩, ⟨"TFC", 0x4, 2, 1, 32, 0⟩, ⟨"TPP", 0x8, 3, 1, 32, 0⟩,
      ⟨"TPS", 0x30, 4, 2, 32, 0⟩, ⟨"TIE", 0x40, 6, 1, 32, 0⟩, ⟨"TCF", 0x80, 7, 1, 32, 0⟩, ⟨"TDRE", 0x100, 8, 1, 32, 0⟩],
  .reg 4 "PSR" none (some 0x4) none [
      ⟨"PCS", 0x3, 0, 2, 32, 0⟩, ⟨"PBYP", 0x4, 2, 1, 32, 0⟩, ⟨"PRESCALE", 0x78, 3, 4, 32, 0⟩],
  .reg 4 "CMR" none (some 0x8) none [
      ⟨"COMPARE", 0xFFFF, 0, 16, 32, 0⟩],
  .reg 4 "CNR" none (some 0xC) none [
      ⟨"COUNTER", 0xFFFF, 0, 16, 32, 0⟩]]

/-- `LPUART_Type` and the masks of its registers, S32K148.h:8293–8307 and 8355–8830. -/
def rLPUART : List Member := [
  .reg 4 "VERID" none (some 0x0) none [
      ⟨"FEATURE", 0xFFFF, 0, 16, 32, 0⟩, ⟨"MINOR", 0xFF0000, 16, 8, 32, 0⟩, ⟨"MAJOR", 0xFF000000, 24, 8, 32, 0⟩],
  .reg 4 "PARAM" none (some 0x4) none [
      ⟨"TXFIFO", 0xFF, 0, 8, 32, 0⟩, ⟨"RXFIFO", 0xFF00, 8, 8, 32, 0⟩],
  .reg 4 "GLOBAL" none (some 0x8) none [
      ⟨"RST", 0x2, 1, 1, 32, 0⟩],
  .reg 4 "PINCFG" none (some 0xC) none [
      ⟨"TRGSEL", 0x3, 0, 2, 32, 0⟩],
  .reg 4 "BAUD" none (some 0x10) none [
      ⟨"SBR", 0x1FFF, 0, 13, 32, 0⟩, ⟨"SBNS", 0x2000, 13, 1, 32, 0⟩, ⟨"RXEDGIE", 0x4000, 14, 1, 32, 0⟩,
      ⟨"LBKDIE", 0x8000, 15, 1, 32, 0⟩, ⟨"RESYNCDIS", 0x10000, 16, 1, 32, 0⟩, ⟨"BOTHEDGE", 0x20000, 17, 1, 32, 0⟩,
      ⟨"MATCFG", 0xC0000, 18, 2, 32, 0⟩, ⟨"RIDMAE", 0x100000, 20, 1, 32, 0⟩, ⟨"RDMAE", 0x200000, 21, 1, 32, 0⟩,
      ⟨"TDMAE", 0x800000, 23, 1, 32, 0⟩, ⟨"OSR", 0x1F000000, 24, 5, 32, 0⟩, ⟨"M10", 0x20000000, 29, 1, 32, 0⟩,
      ⟨"MAEN2", 0x40000000, 30, 1, 32, 0⟩, ⟨"MAEN1", 0x80000000, 31, 1, 32, 0⟩],
  .reg 4 "STAT" none (some 0x14) none [
      ⟨"MA2F", 0x4000, 14, 1, 32, 0⟩, ⟨"MA1F", 0x8000, 15, 1, 32, 0⟩, ⟨"PF", 0x10000, 16, 1, 32, 0⟩,
      ⟨"FE", 0x20000, 17, 1, 32, 0⟩, ⟨"NF", 0x40000, 18, 1, 32, 0⟩, ⟨"OR", 0x80000, 19, 1, 32, 0⟩,
      ⟨"IDLE", 0x100000, 20, 1, 32, 0⟩, ⟨"RDRF", 0x200000, 21, 1, 32, 0⟩, ⟨"TC", 0x400000, 22, 1, 32, 0⟩,
      ⟨"TDRE", 0x800000, 23, 1, 32, 0⟩, ⟨"RAF", 0x1000000, 24, 1, 32, 0⟩, ⟨"LBKDE", 0x2000000, 25, 1, 32, 0⟩,
      ⟨"BRK13", 0x4000000, 26, 1, 32, 0⟩, ⟨"RWUID", 0x8000000, 27, 1, 32, 0⟩, ⟨"RXINV", 0x10000000, 28, 1, 32, 0⟩,
      ⟨"MSBF", 0x20000000, 29, 1, 32, 0⟩, ⟨"RXEDGIF", 0x40000000, 30, 1, 32, 0⟩, ⟨"LBKDIF", 0x80000000, 31, 1, 32, 0⟩],
  .reg 4 "CTRL" none (some 0x18) none [
      ⟨"PT", 0x1, 0, 1, 32, 0⟩, ⟨"PE", 0x2, 1, 1, 32, 0⟩, ⟨"ILT", 0x4, 2, 1, 32, 0⟩, ⟨"WAKE", 0x8, 3, 1, 32, 0⟩,
      ⟨"M", 0x10, 4, 1, 32, 0⟩, ⟨"RSRC", 0x20, 5, 1, 32, 0⟩, ⟨"DOZEEN", 0x40, 6, 1, 32, 0⟩,
      ⟨"LOOPS", 0x80, 7, 1, 32, 0⟩, ⟨"IDLECFG", 0x700, 8, 3, 32, 0⟩, ⟨"M7", 0x800, 11, 1, 32, 0⟩,
      ⟨"MA2IE", 0x4000, 14, 1, 32, 0⟩, ⟨"MA1IE", 0x8000, 15, 1, 32, 0⟩, ⟨"SBK", 0x10000, 16, 1, 32, 0⟩,
      ⟨"RWU", 0x20000, 17, 1, 32, 0⟩, ⟨"RE", 0x40000, 18, 1, 32, 0⟩, ⟨"TE", 0x80000, 19, 1, 32, 0⟩,
      ⟨"ILIE", 0x100000, 20, 1, 32, 0⟩, ⟨"RIE", 0x200000, 21, 1, 32, 0⟩, ⟨"TCIE", 0x400000, 22, 1, 32, 0⟩,
      ⟨"TIE", 0x800000, 23, 1, 32, 0⟩, ⟨"PEIE", 0x1000000, 24, 1, 32, 0⟩, ⟨"FEIE", 0x2000000, 25, 1, 32, 0⟩,
      ⟨"NEIE", 0x4000000, 26, 1, 32, 0⟩, ⟨"ORIE", 0x8000000, 27, 1, 32, 0⟩, ⟨"TXINV", 0x10000000, 28, 1, 32, 0⟩,
      ⟨"TXDIR", 0x20000000, 29, 1, 32, 0⟩, ⟨"R9T8", 0x40000000, 30, 1, 32, 0⟩, ⟨"R8T9", 0x80000000, 31, 1, 32, 0⟩],
  .reg 4 "DATA" none (some 0x1C) none [
      ⟨"R0T0", 0x1, 0, 1, 32, 0⟩, ⟨"R1T1", 0x2, 1, 1, 32, 0⟩, ⟨"R2T2", 0x4, 2, 1, 32, 0⟩, ⟨"R3T3", 0x8, 3, 1, 32, 0⟩,
      ⟨"R4T4", 0x10, 4, 1, 32, 0⟩, ⟨"R5T5", 0x20, 5, 1, 32, 0⟩, ⟨"R6T6", 0x40, 6, 1, 32, 0⟩,
      ⟨"R7T7", 0x80, 7, 1, 32, 0⟩, ⟨"R8T8", 0x100, 8, 1, 32, 0⟩, ⟨"R9T9", 0x200, 9, 1, 32, 0⟩,
      ⟨"IDLINE", 0x800, 11, 1, 32, 0⟩, ⟨"RXEMPT", 0x1000, 12, 1, 32, 0⟩, ⟨"FRETSC", 0x2000, 13, 1, 32, 0⟩,
      ⟨"PARITYE", 0x4000, 14, 1, 32, 0⟩, ⟨"NOISY", 0x8000, 15, 1, 32, 0⟩],
  .reg 4 "MATCH" none (some 0x20) none [
      ⟨"MA1", 0x3FF, 0, 10, 32, 0⟩, ⟨"MA2", 0x3FF0000, 16, 10, 32, 0⟩],
  .reg 4 "MODIR" none (some 0x24) none [
      ⟨"TXCTSE", 0x1, 0, 1, 32, 0⟩, ⟨"TXRTSE", 0x2, 1, 1, 32, 0⟩, ⟨"TXRTSPOL", 0x4, 2, 1, 32, 0⟩,
      ⟨"RXRTSE", 0x8, 3, 1, 32, 0⟩, ⟨"TXCTSC", 0x10, 4, 1, 32, 0⟩, ⟨"TXCTSSRC", 0x20, 5, 1, 32, 0⟩,
      ⟨"RTSWATER", 0x300, 8, 2, 32, 0⟩, ⟨"TNP", 0x30000, 16, 2, 32, 0⟩, ⟨"IREN", 0x40000, 18, 1, 32, 0⟩],
  .reg 4 "FIFO" none (some 0x28) none [
      ⟨"RXFIFOSIZE", 0x7, 0, 3, 32, 0⟩, ⟨"RXFE", 0x8, 3, 1, 32, 0⟩, ⟨"TXFIFOSIZE", 0x70, 4, 3, 32, 0⟩,
      ⟨"TXFE", 0x80, 7, 1, 32, 0⟩, ⟨"RXUFE", 0x100, 8, 1, 32, 0⟩, ⟨"TXOFE", 0x200, 9, 1, 32, 0⟩,
      ⟨"RXIDEN", 0x1C00, 10, 3, 32, 0⟩, ⟨"RXFLUSH", 0x4000, 14, 1, 32, 0⟩, ⟨"TXFLUSH", 0x8000, 15, 1, 32, 0⟩,
      ⟨"RXUF", 0x10000, 16, 1, 32, 0⟩, ⟨"TXOF", 0x20000, 17, 1, 32, 0⟩, ⟨"RXEMPT", 0x400000, 22, 1, 32, 0⟩,
      ⟨"TXEMPT", 0x800000, 23, 1, 32, 0⟩],
  .reg 4 "WATER" none (some 0x2C) none [
      ⟨"TXWATER", 0x3, 0, 2, 32, 0⟩, ⟨"TXCOUNT", 0x700, 8, 3, 32, 0⟩, ⟨"RXWATER", 0x30000, 16, 2, 32, 0⟩,
      ⟨"RXCOUNT", 0x7000000, 24, 3, 32, 0⟩]]

/-- `MCM_Type` and the masks of its registers, S32K148.h:8853–8877 and 8917–9178. -/
def rMCM : List Member := [
  .reg 1 "RESERVED_0" (some 8) none none [],
  .reg 2 "PLASC" none (some 0x8) none [
      ⟨"ASC", 0xFF, 0, 8, 16, 0⟩],
  .reg 2 "PLAMC" none (some 0xA) none [
      ⟨"AMC", 0xFF, 0, 8, 16, 0⟩],
  .reg 4 "CPCR" none (some 0xC) none [
      ⟨"HLT_FSM_ST", 0x3, 0, 2, 32, 0⟩, ⟨"AXBS_HLT_REQ", 0x4, 2, 1, 32, 0⟩, ⟨"AXBS_HLTD", 0x8, 3, 1, 32, 0⟩,
      ⟨"FMC_PF_IDLE", 0x10, 4, 1, 32, 0⟩, ⟨"PBRIDGE_IDLE", 0x40, 6, 1, 32, 0⟩, ⟨"CBRR", 0x200, 9, 1, 32, 0⟩,
      ⟨"SRAMUAP", 0x3000000, 24, 2, 32, 0⟩, ⟨"SRAMUWP", 0x4000000, 26, 1, 32, 0⟩,
      ⟨"SRAMLAP", 0x30000000, 28, 2, 32, 0⟩, ⟨"SRAMLWP", 0x40000000, 30, 1, 32, 0⟩],
  .reg 4 "ISCR" none (some 0x10) none [
      ⟨"FIOC", 0x100, 8, 1, 32, 0⟩, ⟨"FDZC", 0x200, 9, 1, 32, 0⟩, ⟨"FOFC", 0x400, 10, 1, 32, 0⟩,
      ⟨"FUFC", 0x800, 11, 1, 32, 0⟩, ⟨"FIXC", 0x1000, 12, 1, 32, 0⟩, ⟨"FIDC", 0x8000, 15, 1, 32, 0⟩,
      ⟨"FIOCE", 0x1000000, 24, 1, 32, 0⟩, ⟨"FDZCE", 0x2000000, 25, 1, 32, 0⟩, ⟨"FOFCE", 0x4000000, 26, 1, 32, 0⟩,
      ⟨"FUFCE", 0x8000000, 27, 1, 32, 0⟩, ⟨"FIXCE", 0x10000000, 28, 1, 32, 0⟩, ⟨"FIDCE", 0x80000000, 31, 1, 32, 0⟩],
  .reg 1 "RESERVED_1" (some 28) none none [],
  .reg 4 "PID" none (some 0x30) none [
      ⟨"PID", 0xFF, 0, 8, 32, 0⟩],
  .reg 1 "RESERVED_2" (some 12) none none [],
  .reg 4 "CPO" none (some 0x40) none [
      ⟨"CPOREQ", 0x1, 0, 1, 32, 0⟩, ⟨"CPOACK", 0x2, 1, 1, 32, 0⟩, ⟨"CPOWOI", 0x4, 2, 1, 32, 0⟩],
  .reg 1 "RESERVED_3" (some 956) none none [],
  .reg 4 "LMDR" (some 2) (some 0x400) (some 0x4) [
      ⟨"CF0", 0xF, 0, 4, 32, 0⟩, ⟨"CF1", 0xF0, 4, 4, 32, 0⟩, ⟨"MT", 0xE000, 13, 3, 32, 0⟩,
      ⟨"LOCK", 0x10000, 16, 1, 32, 0⟩, ⟨"DPW", 0xE0000, 17, 3, 32, 0⟩, ⟨"WY", 0xF00000, 20, 4, 32, 0⟩,
      ⟨"LMSZ", 0xF000000, 24, 4, 32, 0⟩, ⟨"LMSZH", 0x10000000, 28, 1, 32, 0⟩, ⟨"V", 0x80000000, 31, 1, 32, 0⟩],
  .reg 4 "LMDR2" none (some 0x408) none [
      ⟨"CF1", 0xF0, 4, 4, 32, 0⟩, ⟨"MT", 0xE000, 13, 3, 32, 0⟩, ⟨"LOCK", 0x10000, 16, 1, 32, 0⟩,
      ⟨"DPW", 0xE0000, 17, 3, 32, 0⟩, ⟨"WY", 0xF00000, 20, 4, 32, 0⟩, ⟨"LMSZ", 0xF000000, 24, 4, 32, 0⟩,
      ⟨"LMSZH", 0x10000000, 28, 1, 32, 0⟩, ⟨"V", 0x80000000, 31, 1, 32, 0⟩],
  .reg 1 "RESERVED_4" (some 116) none none [],
  .reg 4 "LMPECR" none (some 0x480) none [
      ⟨"ERNCR", 0x1, 0, 1, 32, 0⟩, ⟨"ER1BR", 0x100, 8, 1, 32, 0⟩, ⟨"ECPR", 0x100000, 20, 1, 32, 0⟩],
  .reg 1 "RESERVED_5" (some 4) none none [],
  .reg 4 "LMPEIR" none (some 0x488) none [
      ⟨"ENC", 0xFF, 0, 8, 32, 0⟩, ⟨"E1B", 0xFF00, 8, 8, 32, 0⟩, ⟨"PE", 0xFF0000, 16, 8, 32, 0⟩,
      ⟨"PEELOC", 0x1F000000, 24, 5, 32, 0⟩, ⟨"V", 0x80000000, 31, 1, 32, 0⟩],
  .reg 1 "RESERVED_6" (some 4) none none [],
  .reg 4 "LMFAR" none (some 0x490) none [
      ⟨"EFADD", 0xFFFFFFFF, 0, 32, 32, 0⟩],
  .reg 4 "LMFATR" none (some 0x494) none [
      ⟨"PEFPRT", 0xF, 0, 4, 32, 0⟩, ⟨"PEFSIZE", 0x70, 4, 3, 32, 0⟩, ⟨"PEFW", 0x80, 7, 1, 32, 0⟩,
      ⟨"PEFMST", 0xFF00, 8, 8, 32, 0⟩, ⟨"OVR", 0x80000000, 31, 1, 32, 0⟩],
  .reg 1 "RESERVED_7" (some 8) none none [],
  .reg 4 "LMFDHR" none (some 0x4A0) none [
      ⟨"PEFDH", 0xFFFFFFFF, 0, 32, 32, 0⟩],
  .reg 4 "LMFDLR" none (some 0x4A4) none [
      ⟨"PEFDL", 0xFFFFFFFF, 0, 32, 32, 0⟩]]

/-- `MPU_Type` and the masks of its registers, S32K148.h:9202–9231 and 9262–9496. -/
def rMPU : List Member := [
  .reg 4 "CESR" none (some 0x0) none [
      ⟨"VLD", 0x1, 0, 1, 32, 0⟩, ⟨"NRGD", 0xF00, 8, 4, 32, 0⟩, ⟨"NSP", 0xF000, 12, 4, 32, 0⟩,
      ⟨"HRL", 0xF0000, 16, 4, 32, 0⟩, ⟨"SPERR4", 0x8000000, 27, 1, 32, 0⟩, ⟨"SPERR3", 0x10000000, 28, 1, 32, 0⟩,
      ⟨"SPERR2", 0x20000000, 29, 1, 32, 0⟩, ⟨"SPERR1", 0x40000000, 30, 1, 32, 0⟩, ⟨"SPERR0", 0x80000000, 31, 1, 32, 0⟩],
  .reg 1 "RESERVED_0" (some 12) none none [],
  .group false "EAR_EDR" (some 5) (some 0x10) (some 0x8) [
    .reg 4 "EAR" none (some 0x10) (some 0x8) [
        ⟨"EADDR", 0xFFFFFFFF, 0, 32, 32, 0⟩],
    .reg 4 "EDR" none (some 0x14) (some 0x8) [
        ⟨"ERW", 0x1, 0, 1, 32, 0⟩, ⟨"EATTR", 0xE, 1, 3, 32, 0⟩, ⟨"EMN", 0xF0, 4, 4, 32, 0⟩,
        ⟨"EPID", 0xFF00, 8, 8, 32, 0⟩, ⟨"EACD", 0xFFFF0000, 16, 16, 32, 0⟩]],
  .reg 1 "RESERVED_1" (some 968) none none [],
  .group false "RGD" (some 16) (some 0x400) (some 0x10) [
    .reg 4 "WORD0" none (some 0x400) (some 0x10) [
        ⟨"SRTADDR", 0xFFFFFFE0, 5, 27, 32, 0⟩],
    .reg 4 "WORD1" none (some 0x404) (some 0x10) [
        ⟨"ENDADDR", 0xFFFFFFE0, 5, 27, 32, 0⟩],
    .reg 4 "WORD2" none (some 0x408) (some 0x10) [
        ⟨"M0UM", 0x7, 0, 3, 32, 0⟩, ⟨"M0SM", 0x18, 3, 2, 32, 0⟩, ⟨"M0PE", 0x20, 5, 1, 32, 0⟩,
        ⟨"M1UM", 0x1C0, 6, 3, 32, 0⟩, ⟨"M1SM", 0x600, 9, 2, 32, 0⟩, ⟨"M1PE", 0x800, 11, 1, 32, 0⟩,
        ⟨"M2UM", 0x7000, 12, 3, 32, 0⟩, ⟨"M2SM", 0x18000, 15, 2, 32, 0⟩, ⟨"M3UM", 0x1C0000, 18, 3, 32, 0⟩,
        ⟨"M3SM", 0x600000, 21, 2, 32, 0⟩, ⟨"M4WE", 0x1000000, 24, 1, 32, 0⟩, ⟨"M4RE", 0x2000000, 25, 1, 32, 0⟩,
        ⟨"M5WE", 0x4000000, 26, 1, 32, 0⟩, ⟨"M5RE", 0x8000000, 27, 1, 32, 0⟩, ⟨"M6WE", 0x10000000, 28, 1, 32, 0⟩,
        ⟨"M6RE", 0x20000000, 29, 1, 32, 0⟩, ⟨"M7WE", 0x40000000, 30, 1, 32, 0⟩, ⟨"M7RE", 0x80000000, 31, 1, 32, 0⟩],
    .reg 4 "WORD3" none (some 0x40C) (some 0x10) [
        ⟨"VLD", 0x1, 0, 1, 32, 0⟩, ⟨"PIDMASK", 0xFF0000, 16, 8, 32, 0⟩, ⟨"PID", 0xFF000000, 24, 8, 32, 0⟩]],
  .reg 1 "RESERVED_2" (some 768) none none [],
  .reg 4 "RGDAAC" (some 16) (some 0x800) (some 0x4) [
      ⟨"M0UM", 0x7, 0, 3, 32, 0⟩, ⟨"M0SM", 0x18, 3, 2, 32, 0⟩, ⟨"M0PE", 0x20, 5, 1, 32, 0⟩,
      ⟨"M1UM", 0x1C0, 6, 3, 32, 0⟩, ⟨"M1SM", 0x600, 9, 2, 32, 0⟩, ⟨"M1PE", 0x800, 11, 1, 32, 0⟩,
      ⟨"M2UM", 0x7000, 12, 3, 32, 0⟩, ⟨"M2SM", 0x18000, 15, 2, 32, 0⟩, ⟨"M3UM", 0x1C0000, 18, 3, 32, 0⟩,
      ⟨"M3SM", 0x600000, 21, 2, 32, 0⟩, ⟨"M4WE", 0x1000000, 24, 1, 32, 0⟩, ⟨"M4RE", 0x2000000, 25, 1, 32, 0⟩,
      ⟨"M5WE", 0x4000000, 26, 1, 32, 0⟩, ⟨"M5RE", 0x8000000, 27, 1, 32, 0⟩, ⟨"M6WE", 0x10000000, 28, 1, 32, 0⟩,
      ⟨"M6RE", 0x20000000, 29, 1, 32, 0⟩, ⟨"M7WE", 0x40000000, 30, 1, 32, 0⟩, ⟨"M7RE", 0x80000000, 31, 1, 32, 0⟩]]

/-- `MSCM_Type` and the masks of its registers, S32K148.h:9518–9539 and 9570–9798. -/
def rMSCM : List Member := [
  .reg 4 "CPxTYPE" none (some 0x0) none [
      ⟨"RYPZ", 0xFF, 0, 8, 32, 0⟩, ⟨"PERSONALITY", 0xFFFFFF00, 8, 24, 32, 0⟩],
  .reg 4 "CPxNUM" none (some 0x4) none [
      ⟨"CPN", 0x1, 0, 1, 32, 0⟩],
  .reg 4 "CPxMASTER" none (some 0x8) none [
      ⟨"PPMN", 0x3F, 0, 6, 32, 0⟩],
  .reg 4 "CPxCOUNT" none (some 0xC) none [
      ⟨"PCNT", 0x3, 0, 2, 32, 0⟩],
  .reg 4 "CPxCFG0" none (some 0x10) none [
      ⟨"DCWY", 0xFF, 0, 8, 32, 0⟩, ⟨"DCSZ", 0xFF00, 8, 8, 32, 0⟩, ⟨"ICWY", 0xFF0000, 16, 8, 32, 0⟩,
      ⟨"ICSZ", 0xFF000000, 24, 8, 32, 0⟩],
  .reg 4 "CPxCFG1" none (some 0x14) none [
      ⟨"L2WY", 0xFF0000, 16, 8, 32, 0⟩, ⟨"L2SZ", 0xFF000000, 24, 8, 32, 0⟩],
  .reg 4 "CPxCFG2" none (some 0x18) none [
      ⟨"TMUSZ", 0xFF00, 8, 8, 32, 0⟩, ⟨"TMLSZ", 0xFF000000, 24, 8, 32, 0⟩],
  .reg 4 "CPxCFG3" none (some 0x1C) none [
      ⟨"FPU", 0x1, 0, 1, 32, 0⟩, ⟨"SIMD", 0x2, 1, 1, 32, 0⟩, ⟨"JAZ", 0x4, 2, 1, 32, 0⟩, ⟨"MMU", 0x8, 3, 1, 32, 0⟩,
      ⟨"TZ", 0x10, 4, 1, 32, 0⟩, ⟨"CMP", 0x20, 5, 1, 32, 0⟩, ⟨"BB", 0x40, 6, 1, 32, 0⟩, ⟨"SBP", 0x300, 8, 2, 32, 0⟩],
  .reg 4 "CP0TYPE" none (some 0x20) none [
      ⟨"RYPZ", 0xFF, 0, 8, 32, 0⟩, ⟨"PERSONALITY", 0xFFFFFF00, 8, 24, 32, 0⟩],
  .reg 4 "CP0NUM" none (some 0x24) none [
      ⟨"CPN", 0x1, 0, 1, 32, 0⟩],
  .reg 4 "CP0MASTER" none (some 0x28) none [
      ⟨"PPMN", 0x3F, 0, 6, 32, 0⟩],
  .reg 4 "CP0COUNT" none (some 0x2C) none [
      ⟨"PCNT", 0x3, 0, 2, 32, 0⟩],
  .reg 4 "CP0CFG0" none (some 0x30) none [
      ⟨"DCWY", 0xFF, 0, 8, 32, 0⟩, ⟨"DCSZ", 0xFF00, 8, 8, 32, 0⟩, ⟨"ICWY", 0xFF0000, 16, 8, 32, 0⟩,
      ⟨"ICSZ", 0xFF000000, 24, 8, 32, 0⟩],
  .reg 4 "CP0CFG1" none (some 0x34) none [
      ⟨"L2WY", 0xFF0000, 16, 8, 32, 0⟩, ⟨"L2SZ", 0xFF000000, 24, 8, 32, 0⟩],
  .reg 4 "CP0CFG2" none (some 0x38) none [
      ⟨"TMUSZ", 0xFF00, 8, 8, 32, 0⟩, ⟨"TMLSZ", 0xFF000000, 24, 8, 32, 0⟩],
  .reg 4 "CP0CFG3" none (some 0x3C) none [
      ⟨"FPU", 0x1, 0, 1, 32, 0⟩, ⟨"SIMD", 0x2, 1, 1, 32, 0⟩, ⟨"JAZ", 0x4, 2, 1, 32, 0⟩, ⟨"MMU", 0x8, 3, 1, 32, 0⟩,
      ⟨"TZ", 0x10, 4, 1, 32, 0⟩, ⟨"CMP", 0x20, 5, 1, 32, 0⟩, ⟨"BB", 0x40, 6, 1, 32, 0⟩, ⟨"SBP", 0x300, 8, 2, 32, 0⟩],
  .reg 1 "RESERVED_0" (some 960) none none [],
  .reg 4 "OCMDR" (some 4) (some 0x400) (some 0x4) [
      ⟨"OCM0", 0xF, 0, 4, 32, 0⟩, ⟨"OCM1", 0xF0, 4, 4, 32, 0⟩, ⟨"OCM2", 0xF00, 8, 4, 32, 0⟩,
      ⟨"OCMPU", 0x1000, 12, 1, 32, 0⟩, ⟨"OCMT", 0xE000, 13, 3, 32, 0⟩, ⟨"RO", 0x10000, 16, 1, 32, 0⟩,
      ⟨"OCMW", 0xE0000, 17, 3, 32, 0⟩, ⟨"OCMSZ", 0xF000000, 24, 4, 32, 0⟩, ⟨"OCMSZH", 0x10000000, 28, 1, 32, 0⟩,
      ⟨"V", 0x80000000, 31, 1, 32, 0⟩]]

/-- `PCC_Type` and the masks of its registers, S32K148.h:9820–9824 and 9898–9918. -/
def rPCC : List Member := [
  .reg 4 "PCCn" (some 122) (some 0x0) (some 0x4) [
      ⟨"PCD", 0x7, 0, 3, 32, 0⟩, ⟨"FRAC", 0x8, 3, 1, 32, 0⟩, ⟨"PCS", 0x7000000, 24, 3, 32, 0⟩,
      ⟨"CGC", 0x40000000, 30, 1, 32, 0⟩, ⟨"PR", 0x80000000, 31, 1, 32, 0⟩]]

/-- `PDB_Type` and the masks of its registers, S32K148.h:9942–9966 and 10010–10128. -/
def rPDB : List Member := [
  .reg 4 "SC" none (some 0x0) none [
      ⟨"LDOK", 0x1, 0, 1, 32, 0⟩, ⟨"CONT", 0x2, 1, 1, 32, 0⟩, ⟨"MULT", 0xC, 2, 2, 32, 0⟩,
      ⟨"PDBIE", 0x20, 5, 1, 32, 0⟩, ⟨"PDBIF", 0x40, 6, 1, 32, 0⟩, ⟨"PDBEN", 0x80, 7, 1, 32, 0⟩,
      ⟨"TRGSEL", 0xF00, 8, 4, 32, 0⟩, ⟨"PRESCALER", 0x7000, 12, 3, 32, 0⟩, ⟨"DMAEN", 0x8000, 15, 1, 32, 0⟩,
      ⟨"SWTRIG", 0x10000, 16, 1, 32, 0⟩, ⟨"PDBEIE", 0x20000, 17, 1, 32, 0⟩, ⟨"LDMOD", 0xC0000, 18, 2, 32, 0⟩],
  .reg 4 "MOD" none (some 0x4) none [
      ⟨"MOD", 0xFFFF, 0, 16, 32, 0⟩],
  .reg 4 "CNT" none (some 0x8) none [
      ⟨"CNT", 0xFFFF, 0, 16, 32, 0⟩],
  .reg 4 "IDLY" none (some 0xC) none [
      ⟨"IDLY", 0xFFFF, 0, 16, 32, 0⟩],
  .group false "CH" (some 4) (some 0x10) (some 0x28) [
    .reg 4 "C1" none (some 0x10) (some 0x28) [
        ⟨"EN", 0xFF, 0, 8, 32, 0⟩, ⟨"TOS", 0xFF00, 8, 8, 32, 0⟩, ⟨"BB", 0xFF0000, 16, 8, 32, 0⟩],
    .reg 4 "S" none (some 0x14) (some 0x28) [
        ⟨"ERR", 0xFF, 0, 8, 32, 0⟩, ⟨"CF", 0xFF0000, 16, 8, 32, 0⟩],
    .reg 4 "DLY" (some 8) (some 0x18) none [
        ⟨"DLY", 0xFFFF, 0, 16, 32, 0⟩]],
  .reg 1 "RESERVED_0" (some 224) none none [],
  .reg 4 "POEN" none (some 0x190) none [
      ⟨"POEN", 0xFF, 0, 8, 32, 0⟩],
  .group true "POnDLY" (some 1) (some 0x194) (some 0x4) [
    .reg 4 "PODLY" none (some 0x194) (some 0x4) [
        ⟨"DLY2", 0xFFFF, 0, 16, 32, 0⟩, ⟨"DLY1", 0xFFFF0000, 16, 16, 32, 0⟩],
    .group false "ACCESS16BIT" none (some 0x194) (some 0x4) [
      .reg 2 "DLY2" none (some 0x194) (some 0x4) [
          ⟨"DLY2", 0xFFFF, 0, 16, 16, 0⟩],
      .reg 2 "DLY1" none (some 0x196) (some 0x4) [
          ⟨"DLY1", 0xFFFF, 0, 16, 16, 0⟩]]]]

/-- `PMC_Type` and the masks of its registers, S32K148.h:10151–10158 and 10198–10254. -/
def rPMC : List Member := [
  .reg 1 "LVDSC1" none (some 0x0) none [
      ⟨"LVDRE", 0x10, 4, 1, 8, 0⟩, ⟨"LVDIE", 0x20, 5, 1, 8, 0⟩, ⟨"LVDACK", 0x40, 6, 1, 8, 0⟩,
      ⟨"LVDF", 0x80, 7, 1, 8, 0⟩],
  .reg 1 "LVDSC2" none (some 0x1) none [
      ⟨"LVWIE", 0x20, 5, 1, 8, 0⟩, ⟨"LVWACK", 0x40, 6, 1, 8, 0⟩, ⟨"LVWF", 0x80, 7, 1, 8, 0⟩],
  .reg 1 "REGSC" none (some 0x2) none [
      ⟨"BIASEN", 0x1, 0, 1, 8, 0⟩, ⟨"CLKBIASDIS", 0x2, 1, 1, 8, 0⟩, ⟨"REGFPM", 0x4, 2, 1, 8, 0⟩,
      ⟨"LPOSTAT", 0x40, 6, 1, 8, 0⟩, ⟨"LPODIS", 0x80, 7, 1, 8, 0⟩],
  .reg 1 "RESERVED_0" (some 1) none none [],
  .reg 1 "LPOTRIM" none (some 0x4) none [
      ⟨"LPOTRIM", 0x1F, 0, 5, 8, 0⟩]]

/-- `PORT_Type` and the masks of its registers, S32K148.h:10276–10287 and 10343–10413. -/
def rPORT : List Member := [
  .reg 4 "PCR" (some 32) (some 0x0) (some 0x4) [
      ⟨"PS", 0x1, 0, 1, 32, 0⟩, ⟨"PE", 0x2, 1, 1, 32, 0⟩, ⟨"PFE", 0x10, 4, 1, 32, 0⟩, ⟨"DSE", 0x40, 6, 1, 32, 0⟩,
      ⟨"MUX", 0x700, 8, 3, 32, 0⟩, ⟨"LK", 0x8000, 15, 1, 32, 0⟩, ⟨"IRQC", 0xF0000, 16, 4, 32, 0⟩,
      ⟨"ISF", 0x1000000, 24, 1, 32, 0⟩],
  .reg 4 "GPCLR" none (some 0x80) none [
      ⟨"GPWD", 0xFFFF, 0, 16, 32, 0⟩, ⟨"GPWE", 0xFFFF0000, 16, 16, 32, 0⟩],
  .reg 4 "GPCHR" none (some 0x84) none [
      ⟨"GPWD", 0xFFFF, 0, 16, 32, 0⟩, ⟨"GPWE", 0xFFFF0000, 16, 16, 32, 0⟩],
  .reg 1 "RESERVED_0" (some 24) none none [],
  .reg 4 "ISFR" none (some 0xA0) none [
      ⟨"ISF", 0xFFFFFFFF, 0, 32, 32, 0⟩],
  .reg 1 "RESERVED_1" (some 28) none none [],
  .reg 4 "DFER" none (some 0xC0) none [
      ⟨"DFE", 0xFFFFFFFF, 0, 32, 32, 0⟩],
  .reg 4 "DFCR" none (some 0xC4) none [
      ⟨"CS", 0x1, 0, 1, 32, 0⟩],
  .reg 4 "DFWR" none (some 0xC8) none [
      ⟨"FILT", 0x1F, 0, 5, 32, 0⟩]]

/-- `QuadSPI_Type` and the masks of its registers, S32K148.h:10436–10479 and 10519–11064. -/
def rQuadSPI : List Member := [
  .reg 4 "MCR" none (some 0x0) none [
      ⟨"SWRSTSD", 0x1, 0, 1, 32, 0⟩, ⟨"SWRSTHD", 0x2, 1, 1, 32, 0⟩, ⟨"END_CFG", 0xC, 2, 2, 32, 0⟩,
      ⟨"DQS_OUT_EN", 0x10, 4, 1, 32, 0⟩, ⟨"DQS_LAT_EN", 0x20, 5, 1, 32, 0⟩, ⟨"DQS_EN", 0x40, 6, 1, 32, 0⟩,
      ⟨"DDR_EN", 0x80, 7, 1, 32, 0⟩, ⟨"VAR_LAT_EN", 0x100, 8, 1, 32, 0⟩, ⟨"CLR_RXF", 0x400, 10, 1, 32, 0⟩,
      ⟨"CLR_TXF", 0x800, 11, 1, 32, 0⟩, ⟨"MDIS", 0x4000, 14, 1, 32, 0⟩, ⟨"DOZE", 0x8000, 15, 1, 32, 0⟩,
      ⟨"ISD2FA", 0x10000, 16, 1, 32, 0⟩, ⟨"ISD3FA", 0x20000, 17, 1, 32, 0⟩, ⟨"ISD2FB", 0x40000, 18, 1, 32, 0⟩,
      ⟨"ISD3FB", 0x80000, 19, 1, 32, 0⟩, ⟨"SCLKCFG", 0xFF000000, 24, 8, 32, 0⟩],
  .reg 1 "RESERVED_0" (some 4) none none [],
  .reg 4 "IPCR" none (some 0x8) none [
      ⟨"IDATSZ", 0xFFFF, 0, 16, 32, 0⟩, ⟨"SEQID", 0xF000000, 24, 4, 32, 0⟩],
  .reg 4 "FLSHCR" none (some 0xC) none [
      ⟨"TCSS", 0xF, 0, 4, 32, 0⟩, ⟨"TCSH", 0xF00, 8, 4, 32, 0⟩, ⟨"TDH", 0x30000, 16, 2, 32, 0⟩],
  .reg 4 "BUF0CR" none (some 0x10) none [
      ⟨"MSTRID", 0xF, 0, 4, 32, 0⟩, ⟨"ADATSZ", 0xFF00, 8, 8, 32, 0⟩, ⟨"HP_EN", 0x80000000, 31, 1, 32, 0⟩],
  .reg 4 "BUF1CR" none (some 0x14) none [
      ⟨"MSTRID", 0xF, 0, 4, 32, 0⟩, ⟨"ADATSZ", 0xFF00, 8, 8, 32, 0⟩],
  .reg 4 "BUF2CR" none (some 0x18) none [
      ⟨"MSTRID", 0xF, 0, 4, 32, 0⟩, ⟨"ADATSZ", 0xFF00, 8, 8, 32, 0⟩],
  .reg 4 "BUF3CR" none (some 0x1C) none [
      ⟨"MSTRID", 0xF, 0, 4, 32, 0⟩, ⟨"ADATSZ", 0xFF00, 8, 8, 32, 0⟩, ⟨"ALLMST", 0x80000000, 31, 1, 32, 0⟩],
  .reg 4 "BFGENCR" none (some 0x20) none [
      ⟨"SEQID", 0xF000, 12, 4, 32, 0⟩],
  .reg 4 "SOCCR" none (some 0x24) none [
      ⟨"SOCCFG", 0xFFFFFFFF, 0, 32, 32, 0⟩],
  .reg 1 "RESERVED_1" (some 8) none none [],
  .reg 4 "BUF0IND" none (some 0x30) none [
      ⟨"TPINDX0", 0xFFFFFFF8, 3, 29, 32, 0⟩],
  .reg 4 "BUF1IND" none (some 0x34) none [
      ⟨"TPINDX1", 0xFFFFFFF8, 3, 29, 32, 0⟩],
  .reg 4 "BUF2IND" none (some 0x38) none [
      ⟨"TPINDX2", 0xFFFFFFF8, 3, 29, 32, 0⟩],
  .reg 1 "RESERVED_2" (some 196) none none [],
  .reg 4 "SFAR" none (some 0x100) none [
      ⟨"SFADR", 0xFFFFFFFF, 0, 32, 32, 0⟩],
  .reg 4 "SFACR" none (some 0x104) none [
      ⟨"CAS", 0xF, 0, 4, 32, 0⟩, ⟨"WA", 0x10000, 16, 1, 32, 0⟩],
  .reg 4 "SMPR" none (some 0x108) none [
      ⟨"FSPHS", 0x20, 5, 1, 32, 0⟩, ⟨"FSDLY", 0x40, 6, 1, 32, 0⟩],
  .reg 4 "RBSR" none (some 0x10C) none [
      ⟨"RDBFL", 0x3F00, 8, 6, 32, 0⟩, ⟨"RDCTR", 0xFFFF0000, 16, 16, 32, 0⟩],
  .reg 4 "RBCT" none (some 0x110) none [
      ⟨"WMRK", 0x1F, 0, 5, 32, 0⟩, ⟨"RXBRD", 0x100, 8, 1, 32, 0⟩],
  .reg 1 "RESERVED_3" (some 60) none none [],
  .reg 4 "TBSR" none (some 0x150) none [
      ⟨"TRBFL", 0x3F00, 8, 6, 32, 0⟩, ⟨"TRCTR", 0xFFFF0000, 16, 16, 32, 0⟩],
  .reg 4 "TBDR" none (some 0x154) none [
      ⟨"TXDATA", 0xFFFFFFFF, 0, 32, 32, 0⟩],
  .reg 4 "TBCT" none (some 0x158) none [
      ⟨"WMRK", 0x1F, 0, 5, 32, 0⟩],
  .reg 4 "SR" none (some 0x15C) none [
      ⟨"BUSY", 0x1, 0, 1, 32, 0⟩, ⟨"IP_ACC", 0x2, 1, 1, 32, 0⟩, ⟨"AHB_ACC", 0x4, 2, 1, 32, 0⟩,
      ⟨"AHBGNT", 0x20, 5, 1, 32, 0⟩, ⟨"AHBTRN", 0x40, 6, 1, 32, 0⟩, ⟨"AHB0NE", 0x80, 7, 1, 32, 0⟩,
      ⟨"AHB1NE", 0x100, 8, 1, 32, 0⟩, ⟨"AHB2NE", 0x200, 9, 1, 32, 0⟩, ⟨"AHB3NE", 0x400, 10, 1, 32, 0⟩,
      ⟨"AHB0FUL", 0x800, 11, 1, 32, 0⟩, ⟨"AHB1FUL", 0x1000, 12, 1, 32, 0⟩, ⟨"AHB2FUL", 0x2000, 13, 1, 32, 0⟩,
      ⟨"AHB3FUL", 0x4000, 14, 1, 32, 0⟩, ⟨"RXWE", 0x10000, 16, 1, 32, 0⟩, ⟨"RXFULL", 0x80000, 19, 1, 32, 0⟩,
      ⟨"RXDMA", 0x800000, 23, 1, 32, 0⟩, ⟨"TXEDA", 0x1000000, 24, 1, 32, 0⟩, ⟨"TXWA", 0x2000000, 25, 1, 32, 0⟩,
      ⟨"TXDMA", 0x4000000, 26, 1, 32, 0⟩, ⟨"TXFULL", 0x8000000, 27, 1, 32, 0⟩],
  .reg 4 "FR" none (some 0x160) none [
      ⟨"TFF", 0x1, 0, 1, 32, 0⟩, ⟨"IPGEF", 0x10, 4, 1, 32, 0⟩, ⟨"IPIEF", 0x40, 6, 1, 32, 0⟩,
      ⟨"IPAEF", 0x80, 7, 1, 32, 0⟩, ⟨"ABOF", 0x1000, 12, 1, 32, 0⟩, ⟨"AIBSEF", 0x2000, 13, 1, 32, 0⟩,
      ⟨"AITEF", 0x4000, 14, 1, 32, 0⟩, ⟨"ABSEF", 0x8000, 15, 1, 32, 0⟩, ⟨"RBDF", 0x10000, 16, 1, 32, 0⟩,
      ⟨"RBOF", 0x20000, 17, 1, 32, 0⟩, ⟨"ILLINE", 0x800000, 23, 1, 32, 0⟩, ⟨"TBUF", 0x4000000, 26, 1, 32, 0⟩,
      ⟨"TBFF", 0x8000000, 27, 1, 32, 0⟩],
  .reg 4 "RSER" none (some 0x164) none [
      ⟨"TFIE", 0x1, 0, 1, 32, 0⟩, ⟨"IPGEIE", 0x10, 4, 1, 32, 0⟩, ⟨"IPIEIE", 0x40, 6, 1, 32, 0⟩,
      ⟨"IPAEIE", 0x80, 7, 1, 32, 0⟩, ⟨"ABOIE", 0x1000, 12, 1, 32, 0⟩, ⟨"AIBSIE", 0x2000, 13, 1, 32, 0⟩,
      ⟨"AITIE", 0x4000, 14, 1, 32, 0⟩, ⟨"ABSEIE", 0x8000, 15, 1, 32, 0⟩, ⟨"RBDIE", 0x10000, 16, 1, 32, 0⟩,
      ⟨"RBOIE", 0x20000, 17, 1, 32, 0⟩, ⟨"RBDDE", 0x200000, 21, 1, 32, 0⟩, ⟨"ILLINIE", 0x800000, 23, 1, 32, 0⟩,
      ⟨"TBFDE", 0x2000000, 25, 1, 32, 0⟩, ⟨"TBUIE", 0x4000000, 26, 1, 32, 0⟩, ⟨"TBFIE", 0x8000000, 27, 1, 32, 0⟩],
  .reg 4 "SPNDST" none (some 0x168) none [
      ⟨"SUSPND", 0x1, 0, 1, 32, 0⟩, ⟨"SPDBUF", 0xC0, 6, 2, 32, 0⟩, ⟨"DATLFT", 0xFE00, 9, 7, 32, 0⟩],
  .reg 4 "SPTRCLR" none (some 0x16C) none [
      ⟨"BFPTRC", 0x1, 0, 1, 32, 0⟩, ⟨"IPPTRC", 0x100, 8, 1, 32, 0⟩],
  .reg 1 "RESERVED_4" (some 16) none none [],
  .reg 4 "SFA1AD" none (some 0x180) none [
      ⟨"TPADA1", 0xFFFFFC00, 10, 22, 32, 0⟩],
  .reg 4 "SFA2AD" none (some 0x184) none [
      ⟨"TPADA2", 0xFFFFFC00, 10, 22, 32, 0⟩],
  .reg 4 "SFB1AD" none (some 0x188) none [
      ⟨"TPADB1", 0xFFFFFC00, 10, 22, 32, 0⟩],
  .reg 4 "SFB2AD" none (some 0x18C) none [
      ⟨"TPADB2", 0xFFFFFC00, 10, 22, 32, 0⟩],
  .reg 1 "RESERVED_5" (some 112) none none [],
  .reg 4 "RBDR" (some 32) (some 0x200) (some 0x4) [
      ⟨"RXDATA", 0xFFFFFFFF, 0, 32, 32, 0⟩],
  .reg 1 "RESERVED_6" (some 128) none none [],
  .reg 4 "LUTKEY" none (some 0x300) none [
      ⟨"KEY", 0xFFFFFFFF, 0, 32, 32, 0⟩],
  .reg 4 "LCKCR" none (some 0x304) none [
      ⟨"LOCK", 0x1, 0, 1, 32, 0⟩, ⟨"UNLOCK", 0x2, 1, 1, 32, 0⟩],
  .reg 1 "RESERVED_7" (some 8) none none [],
  .reg 4 "LUT" (some 64) (some 0x310) (some 0x4) [
      ⟨"OPRND0", 0xFF, 0, 8, 32, 0⟩, ⟨"PAD0", 0x300, 8, 2, 32, 0⟩, ⟨"INSTR0", 0xFC00, 10, 6, 32, 0⟩,
      ⟨"OPRND1", 0xFF0000, 16, 8, 32, 0⟩, ⟨"PAD1", 0x3000000, 24, 2, 32, 0⟩, ⟨"INSTR1", 0xFC000000, 26, 6, 32, 0⟩]]

/-- `RCM_Type` and the masks of its registers, S32K148.h:11085–11094 and 11134–11351. -/
def rRCM : List Member := [
  .reg 4 "VERID" none (some 0x0) none [
      ⟨"FEATURE", 0xFFFF, 0, 16, 32, 0⟩, ⟨"MINOR", 0xFF0000, 16, 8, 32, 0⟩, ⟨"MAJOR", 0xFF000000, 24, 8, 32, 0⟩],
  .reg 4 "PARAM" none (some 0x4) none [
      ⟨"EWAKEUP", 0x1, 0, 1, 32, 0⟩, ⟨"ELVD", 0x2, 1, 1, 32, 0⟩, ⟨"ELOC", 0x4, 2, 1, 32, 0⟩,
      ⟨"ELOL", 0x8, 3, 1, 32, 0⟩, ⟨"EWDOG", 0x20, 5, 1, 32, 0⟩, ⟨"EPIN", 0x40, 6, 1, 32, 0⟩,
      ⟨"EPOR", 0x80, 7, 1, 32, 0⟩, ⟨"EJTAG", 0x100, 8, 1, 32, 0⟩, ⟨"ELOCKUP", 0x200, 9, 1, 32, 0⟩,
      ⟨"ESW", 0x400, 10, 1, 32, 0⟩, ⟨"EMDM_AP", 0x800, 11, 1, 32, 0⟩, ⟨"ESACKERR", 0x2000, 13, 1, 32, 0⟩,
      ⟨"ETAMPER", 0x8000, 15, 1, 32, 0⟩, ⟨"ECORE1", 0x10000, 16, 1, 32, 0⟩],
  .reg 4 "SRS" none (some 0x8) none [
      ⟨"LVD", 0x2, 1, 1, 32, 0⟩, ⟨"LOC", 0x4, 2, 1, 32, 0⟩, ⟨"LOL", 0x8, 3, 1, 32, 0⟩, ⟨"WDOG", 0x20, 5, 1, 32, 0⟩,
      ⟨"PIN", 0x40, 6, 1, 32, 0⟩, ⟨"POR", 0x80, 7, 1, 32, 0⟩, ⟨"JTAG", 0x100, 8, 1, 32, 0⟩,
      ⟨"LOCKUP", 0x200, 9, 1, 32, 0⟩, ⟨"SW", 0x400, 10, 1, 32, 0⟩, ⟨"MDM_AP", 0x800, 11, 1, 32, 0⟩,
      ⟨"SACKERR", 0x2000, 13, 1, 32, 0⟩],
  .reg 4 "RPC" none (some 0xC) none [
      ⟨"RSTFLTSRW", 0x3, 0, 2, 32, 0⟩, ⟨"RSTFLTSS", 0x4, 2, 1, 32, 0⟩, ⟨"RSTFLTSEL", 0x1F00, 8, 5, 32, 0⟩],
  .reg 1 "RESERVED_0" (some 8) none none [],
  .reg 4 "SSRS" none (some 0x18) none [
      ⟨"SLVD", 0x2, 1, 1, 32, 0⟩, ⟨"SLOC", 0x4, 2, 1, 32, 0⟩, ⟨"SLOL", 0x8, 3, 1, 32, 0⟩,
      ⟨"SWDOG", 0x20, 5, 1, 32, 0⟩, ⟨"SPIN", 0x40, 6, 1, 32, 0⟩, ⟨"SPOR", 0x80, 7, 1, 32, 0⟩,
      ⟨"SJTAG", 0x100, 8, 1, 32, 0⟩, ⟨"SLOCKUP", 0x200, 9, 1, 32, 0⟩, ⟨"SSW", 0x400, 10, 1, 32, 0⟩,
      ⟨"SMDM_AP", 0x800, 11, 1, 32, 0⟩, ⟨"SSACKERR", 0x2000, 13, 1, 32, 0⟩],
  .reg 4 "SRIE" none (some 0x1C) none [
      ⟨"DELAY", 0x3, 0, 2, 32, 0⟩, ⟨"LOC", 0x4, 2, 1, 32, 0⟩, ⟨"LOL", 0x8, 3, 1, 32, 0⟩, ⟨"WDOG", 0x20, 5, 1, 32, 0⟩,
      ⟨"PIN", 0x40, 6, 1, 32, 0⟩, ⟨"GIE", 0x80, 7, 1, 32, 0⟩, ⟨"JTAG", 0x100, 8, 1, 32, 0⟩,
      ⟨"LOCKUP", 0x200, 9, 1, 32, 0⟩, ⟨"SW", 0x400, 10, 1, 32, 0⟩, ⟨"MDM_AP", 0x800, 11, 1, 32, 0⟩,
      ⟨"SACKERR", 0x2000, 13, 1, 32, 0⟩]]

/-- `RTC_Type` and the masks of its registers, S32K148.h:11372–11382 and 11428–11539. -/
def rRTC : List Member := [
  .reg 4 "TSR" none (some 0x0) none [
      ⟨"TSR", 0xFFFFFFFF, 0, 32, 32, 0⟩],
  .reg 4 "TPR" none (some 0x4) none [
      ⟨"TPR", 0xFFFF, 0, 16, 32, 0⟩],
  .reg 4 "TAR" none (some 0x8) none [
      ⟨"TAR", 0xFFFFFFFF, 0, 32, 32, 0⟩],
  .reg 4 "TCR" none (some 0xC) none [
      ⟨"TCR", 0xFF, 0, 8, 32, 0⟩, ⟨"CIR", 0xFF00, 8, 8, 32, 0⟩, ⟨"TCV", 0xFF0000, 16, 8, 32, 0⟩,
      ⟨"CIC", 0xFF000000, 24, 8, 32, 0⟩],
  .reg 4 "CR" none (some 0x10) none [
      ⟨"SWR", 0x1, 0, 1, 32, 0⟩, ⟨"SUP", 0x4, 2, 1, 32, 0⟩, ⟨"UM", 0x8, 3, 1, 32, 0⟩, ⟨"CPS", 0x20, 5, 1, 32, 0⟩,
      ⟨"LPOS", 0x80, 7, 1, 32, 0⟩, ⟨"CPE", 0x1000000, 24, 1, 32, 0⟩],
  .reg 4 "SR" none (some 0x14) none [
      ⟨"TIF", 0x1, 0, 1, 32, 0⟩, ⟨"TOF", 0x2, 1, 1, 32, 0⟩, ⟨"TAF", 0x4, 2, 1, 32, 0⟩, ⟨"TCE", 0x10, 4, 1, 32, 0⟩],
  .reg 4 "LR" none (some 0x18) none [
      ⟨"TCL", 0x8, 3, 1, 32, 0⟩, ⟨"CRL", 0x10, 4, 1, 32, 0⟩, ⟨"SRL", 0x20, 5, 1, 32, 0⟩, ⟨"LRL", 0x40, 6, 1, 32, 0⟩],
  .reg 4 "IER" none (some 0x1C) none [
      ⟨"TIIE", 0x1, 0, 1, 32, 0⟩, ⟨"TOIE", 0x2, 1, 1, 32, 0⟩, ⟨"TAIE", 0x4, 2, 1, 32, 0⟩,
      ⟨"TSIE", 0x10, 4, 1, 32, 0⟩, ⟨"TSIC", 0x70000, 16, 3, 32, 0⟩]]

/-- `S32_NVIC_Type` and the masks of its registers, S32K148.h:11566–11585 and 11625–12152. -/
def rS32_NVIC : List Member := [
  .reg 4 "ISER" (some 4) (some 0x0) (some 0x4) [
      ⟨"SETENA", 0xFFFFFFFF, 0, 32, 32, 0⟩],
  .reg 1 "RESERVED_0" (some 112) none none [],
  .reg 4 "ICER" (some 4) (some 0x80) (some 0x4) [
      ⟨"CLRENA", 0xFFFFFFFF, 0, 32, 32, 0⟩],
  .reg 1 "RESERVED_1" (some 112) none none [],
  .reg 4 "ISPR" (some 4) (some 0x100) (some 0x4) [
      ⟨"SETPEND", 0xFFFFFFFF, 0, 32, 32, 0⟩],
  .reg 1 "RESERVED_2" (some 112) none none [],
  .reg 4 "ICPR" (some 4) (some 0x180) (some 0x4) [
      ⟨"CLRPEND", 0xFFFFFFFF, 0, 32, 32, 0⟩],
  .reg 1 "RESERVED_3" (some 112) none none [],
  .reg 4 "IABR" (some 4) (some 0x200) (some 0x4) [
      ⟨"ACTIVE", 0xFFFFFFFF, 0, 32, 32, 0⟩],
  .reg 1 "RESERVED_4" (some 240) none none [],
  .reg 1 "IP" (some 123) (some 0x300) (some 0x1) [
      ⟨"PRI0", 0xFF, 0, 8, 8, 0⟩, ⟨"PRI1", 0xFF, 0, 8, 8, 1⟩, ⟨"PRI2", 0xFF, 0, 8, 8, 2⟩, ⟨"PRI3", 0xFF, 0, 8, 8, 3⟩,
      ⟨"PRI4", 0xFF, 0, 8, 8, 4⟩, ⟨"PRI5", 0xFF, 0, 8, 8, 5⟩, ⟨"PRI6", 0xFF, 0, 8, 8, 6⟩, ⟨"PRI7", 0xFF, 0, 8, 8, 7⟩,
      ⟨"PRI8", 0xFF, 0, 8, 8, 8⟩, ⟨"PRI9", 0xFF, 0, 8, 8, 9⟩, ⟨"PRI10", 0xFF, 0, 8, 8, 10⟩,
      ⟨"PRI11", 0xFF, 0, 8, 8, 11⟩, ⟨"PRI12", 0xFF, 0, 8, 8, 12⟩, ⟨"PRI13", 0xFF, 0, 8, 8, 13⟩,
      ⟨"PRI14", 0xFF, 0, 8, 8, 14⟩, ⟨"PRI15", 0xFF, 0, 8, 8, 15⟩, ⟨"PRI16", 0xFF, 0, 8, 8, 16⟩,
      ⟨"PRI17", 0xFF, 0, 8, 8, 17⟩, ⟨"PRI18", 0xFF, 0, 8, 8, 18⟩, ⟨"PRI19", 0xFF, 0, 8, 8, 19⟩,
      ⟨"PRI20", 0xFF, 0, 8, 8, 20⟩, ⟨"PRI21", 0xFF, 0, 8, 8, 21⟩, ⟨"PRI22", 0xFF, 0, 8, 8, 22⟩,
      ⟨"PRI23", 0xFF, 0, 8, 8, 23⟩, ⟨"PRI24", 0xFF, 0, 8, 8, 24⟩, ⟨"PRI25", 0xFF, 0, 8, 8, 25⟩,
      ⟨"PRI26", 0xFF, 0, 8, 8, 26⟩, ⟨"PRI27", 0xFF, 0, 8, 8, 27⟩, ⟨"PRI28", 0xFF, 0, 8, 8, 28⟩,
      ⟨"PRI29", 0xFF, 0, 8, 8, 29⟩, ⟨"PRI30", 0xFF, 0, 8, 8, 30⟩, ⟨"PRI31", 0xFF, 0, 8, 8, 31⟩,
      ⟨"PRI32", 0xFF, 0, 8, 8, 32⟩, ⟨"PRI33", 0xFF, 0, 8, 8, 33⟩, ⟨"PRI34", 0xFF, 0, 8, 8, 34⟩,
      ⟨"PRI35", 0xFF, 0, 8, 8, 35⟩, ⟨"PRI36", 0xFF, 0, 8, 8, 36⟩, ⟨"PRI37", 0xFF, 0, 8, 8, 37⟩,
      ⟨"PRI38", 0xFF, 0, 8, 8, 38⟩, ⟨"PRI39", 0xFF, 0, 8, 8, 39⟩, ⟨"PRI40", 0xFF, 0, 8, 8, 40⟩,
      ⟨"PRI41", 0xFF, 0, 8, 8, 41⟩, ⟨"PRI42", 0xFF, 0, 8, 8, 42⟩, ⟨"PRI43", 0xFF, 0, 8, 8, 43⟩,
      ⟨"PRI44", 0xFF, 0, 8, 8, 44⟩, ⟨"PRI45", 0xFF, 0, 8, 8, 45⟩, ⟨"PRI46", 0xFF, 0, 8, 8, 46⟩,
      ⟨"PRI47", 0xFF, 0, 8, 8, 47⟩, ⟨"PRI48", 0xFF, 0, 8, 8, 48⟩, ⟨"PRI49", 0xFF, 0, 8, 8, 49⟩,
      ⟨"PRI50", 0xFF, 0, 8, 8, 50⟩, ⟨"PRI51", 0xFF, 0, 8, 8, 51⟩, ⟨"PRI52", 0xFF, 0, 8, 8, 52⟩,
      ⟨"PRI53", 0xFF, 0, 8, 8, 53⟩, ⟨"PRI54", 0xFF, 0, 8, 8, 54⟩, ⟨"PRI55", 0xFF, 0, 8, 8, 55⟩,
      ⟨"PRI56", 0xFF, 0, 8, 8, 56⟩, ⟨"PRI57", 0xFF, 0, 8, 8, 57⟩, ⟨"PRI58", 0xFF, 0, 8, 8, 58⟩,
      ⟨"PRI59", 0xFF, 0, 8, 8, 59⟩, ⟨"PRI60", 0xFF, 0, 8, 8, 60⟩, ⟨"PRI61", 0xFF, 0, 8, 8, 61⟩,
      ⟨"PRI62", 0xFF, 0, 8, 8, 62⟩, ⟨"PRI63", 0xFF, 0, 8, 8, 63⟩, ⟨"PRI64", 0xFF, 0, 8, 8, 64⟩,
      ⟨"PRI65", 0xFF, 0, 8, 8, 65⟩, ⟨"PRI66", 0xFF, 0, 8, 8, 66⟩, ⟨"PRI67", 0xFF, 0, 8, 8, 67⟩,
      ⟨"PRI68", 0xFF, 0, 8, 8, 68⟩, ⟨"PRI69", 0xFF, 0, 8, 8, 69⟩, ⟨"PRI70", 0xFF, 0, 8, 8, 70⟩,
      ⟨"PRI71", 0xFF, 0, 8, 8, 71⟩, ⟨"PRI72", 0xFF, 0, 8, 8, 72⟩, ⟨"PRI73", 0xFF, 0, 8, 8, 73⟩,
      ⟨"PRI74", 0xFF, 0, 8, 8, 74⟩, ⟨"PRI75", 0xFF, 0, 8, 8, 75⟩, ⟨"PRI76", 0xFF, 0, 8, 8, 76⟩,
      ⟨"PRI77", 0xFF, 0, 8, 8, 77⟩, ⟨"PRI78", 0xFF, 0, 8, 8, 78⟩, ⟨"PRI79", 0xFF, 0, 8, 8, 79⟩,
      ⟨"PRI80", 0xFF, 0, 8, 8, 80⟩, ⟨"PRI81", 0xFF, 0, 8, 8, 81⟩, ⟨"PRI82", 0xFF, 0, 8, 8, 82⟩,
      ⟨"PRI83", 0xFF, 0, 8, 8, 83⟩, ⟨"PRI84", 0xFF, 0, 8, 8, 84⟩, ⟨"PRI85", 0xFF, 0, 8, 8, 85⟩,
      ⟨"PRI86", 0xFF, 0, 8, 8, 86⟩, ⟨"PRI87", 0xFF, 0, 8, 8, 87⟩, ⟨"PRI88", 0xFF, 0, 8, 8, 88⟩,
      ⟨"PRI89", 0xFF, 0, 8, 8, 89⟩, ⟨"PRI90", 0xFF, 0, 8, 8, 90⟩, ⟨"PRI91", 0xFF, 0, 8, 8, 91⟩,
      ⟨"PRI92", 0xFF, 0, 8, 8, 92⟩, ⟨"PRI93", 0xFF, 0, 8, 8, 93⟩, ⟨"PRI94", 0xFF, 0, 8, 8, 94⟩,
      ⟨"PRI95", 0xFF, 0, 8, 8, 95⟩, ⟨"PRI96", 0xFF, 0, 8, 8, 96⟩, ⟨"PRI97", 0xFF, 0, 8, 8, 97⟩,
      ⟨"PRI98", 0xFF, 0, 8, 8, 98⟩, ⟨"PRI99", 0xFF, 0, 8, 8, 99⟩, ⟨"PRI100", 0xFF, 0, 8, 8, 100⟩,
      ⟨"PRI101", 0xFF, 0, 8, 8, 101⟩, ⟨"PRI102", 0xFF, 0, 8, 8, 102⟩, ⟨"PRI103", 0xFF, 0, 8, 8, 103⟩,
      ⟨"PRI104", 0xFF, 0, 8, 8, 104⟩, ⟨"PRI105", 0xFF, 0, 8, 8, 105⟩, ⟨"PRI106", 0xFF, 0, 8, 8, 106⟩,
      ⟨"PRI107", 0xFF, 0, 8, 8, 107⟩, ⟨"PRI108", 0xFF, 0, 8, 8, 108⟩, ⟨"PRI109", 0xFF, 0, 8, 8, 109⟩,
      ⟨"PRI110", 0xFF, 0, 8, 8, 110⟩, ⟨"PRI111", 0xFF, 0, 8, 8, 111⟩, ⟨"PRI112", 0xFF, 0, 8, 8, 112⟩,
      ⟨"PRI113", 0xFF, 0, 8, 8, 113⟩, ⟨"PRI114", 0xFF, 0, 8, 8, 114⟩, ⟨"PRI115", 0xFF, 0, 8, 8, 115⟩,
      ⟨"PRI116", 0xFF, 0, 8, 8, 116⟩, ⟨"PRI117", 0xFF, 0, 8, 8, 117⟩, ⟨"PRI118", 0xFF, 0, 8, 8, 118⟩,
      ⟨"PRI119", 0xFF, 0, 8, 8, 119⟩, ⟨"PRI120", 0xFF, 0, 8, 8, 120⟩, ⟨"PRI121", 0xFF, 0, 8, 8, 121⟩,
      ⟨"PRI122", 0xFF, 0, 8, 8, 122⟩],
  .reg 1 "RESERVED_5" (some 2693) none none [],
  .reg 4 "STIR" none (some 0xE00) none [
      ⟨"INTID", 0x1FF, 0, 9, 32, 0⟩]]

/-- `S32_SCB_Type` and the masks of its registers, S32K148.h:12174–12201 and 12232–12753. -/
def rS32_SCB : List Member := [
  .reg 1 "RESERVED_0" (some 8) none none [],
  .reg 4 "ACTLR" none (some 0x8) none [
      ⟨"DISMCYCINT", 0x1, 0, 1, 32, 0⟩, ⟨"DISDEFWBUF", 0x2, 1, 1, 32, 0⟩, ⟨"DISFOLD", 0x4, 2, 1, 32, 0⟩,
      ⟨"DISFPCA", 0x100, 8, 1, 32, 0⟩, ⟨"DISOOFP", 0x200, 9, 1, 32, 0⟩],
  .reg 1 "RESERVED_1" (some 3316) none none [],
  .reg 4 "CPUID" none (some 0xD00) none [
      ⟨"REVISION", 0xF, 0, 4, 32, 0⟩, ⟨"PARTNO", 0xFFF0, 4, 12, 32, 0⟩, ⟨"VARIANT", 0xF00000, 20, 4, 32, 0⟩,
      ⟨"IMPLEMENTER", 0xFF000000, 24, 8, 32, 0⟩],
  .reg 4 "ICSR" none (some 0xD04) none [
      ⟨"VECTACTIVE", 0x1FF, 0, 9, 32, 0⟩, ⟨"RETTOBASE", 0x800, 11, 1, 32, 0⟩, ⟨"VECTPENDING", 0x3F000, 12, 6, 32, 0⟩,
      ⟨"ISRPENDING", 0x400000, 22, 1, 32, 0⟩, ⟨"ISRPREEMPT", 0x800000, 23, 1, 32, 0⟩,
      ⟨"PENDSTCLR", 0x2000000, 25, 1, 32, 0⟩, ⟨"PENDSTSET", 0x4000000, 26, 1, 32, 0⟩,
      ⟨"PENDSVCLR", 0x8000000, 27, 1, 32, 0⟩, ⟨"PENDSVSET", 0x10000000, 28, 1, 32, 0⟩,
      ⟨"NMIPENDSET", 0x80000000, 31, 1, 32, 0⟩],
  .reg 4 "VTOR" none (some 0xD08) none [
      ⟨"TBLOFF", 0xFFFFFF80, 7, 25, 32, 0⟩],
  .reg 4 "AIRCR" none (some 0xD0C) none [
      ⟨"VECTRESET", 0x1, 0, 1, 32, 0⟩, ⟨"VECTCLRACTIVE", 0x2, 1, 1, 32, 0⟩, ⟨"SYSRESETREQ", 0x4, 2, 1, 32, 0⟩,
      ⟨"PRIGROUP", 0x700, 8, 3, 32, 0⟩, ⟨"ENDIANNESS", 0x8000, 15, 1, 32, 0⟩, ⟨"VECTKEY", 0xFFFF0000, 16, 16, 32, 0⟩],
  .reg 4 "SCR" none (some 0xD10) none [
      ⟨"SLEEPONEXIT", 0x2, 1, 1, 32, 0⟩, ⟨"SLEEPDEEP", 0x4, 2, 1, 32, 0⟩, ⟨"SEVONPEND", 0x10, 4, 1, 32, 0⟩],
  .reg 4 "CCR" none (some 0xD14) none [
      ⟨"NONBASETHRDENA", 0x1, 0, 1, 32, 0⟩, ⟨"USERSETMPEND", 0x2, 1, 1, 32, 0⟩, ⟨"UNALIGN_TRP", 0x8, 3, 1, 32, 0⟩,
      ⟨"DIV_0_TRP", 0x10, 4, 1, 32, 0⟩, ⟨"BFHFNMIGN", 0x100, 8, 1, 32, 0⟩, ⟨"STKALIGN", 0x200, 9, 1, 32, 0⟩],
  .reg 4 "SHPR1" none (some 0xD18) none [
      ⟨"PRI_4", 0xFF, 0, 8, 32, 0⟩, ⟨"PRI_5", 0xFF00, 8, 8, 32, 0⟩, ⟨"PRI_6", 0xFF0000, 16, 8, 32, 0⟩],
  .reg 4 "SHPR2" none (some 0xD1C) none [
      ⟨"PRI_11", 0xFF000000, 24, 8, 32, 0⟩],
  .reg 4 "SHPR3" none (some 0xD20) none [
      ⟨"PRI_12", 0xFF, 0, 8, 32, 0⟩, ⟨"PRI_14", 0xFF0000, 16, 8, 32, 0⟩, ⟨"PRI_15", 0xFF000000, 24, 8, 32, 0⟩],
  .reg 4 "SHCSR" none (some 0xD24) none [
      ⟨"MEMFAULTACT", 0x1, 0, 1, 32, 0⟩, ⟨"BUSFAULTACT", 0x2, 1, 1, 32, 0⟩, ⟨"USGFAULTACT", 0x8, 3, 1, 32, 0⟩,
      ⟨"SVCALLACT", 0x80, 7, 1, 32, 0⟩, ⟨"MONITORACT", 0x100, 8, 1, 32, 0⟩, ⟨"PENDSVACT", 0x400, 10, 1, 32, 0⟩,
      ⟨"SYSTICKACT", 0x800, 11, 1, 32, 0⟩, ⟨"USGFAULTPENDED", 0x1000, 12, 1, 32, 0⟩,
      ⟨"MEMFAULTPENDED", 0x2000, 13, 1, 32, 0⟩, ⟨"BUSFAULTPENDED", 0x4000, 14, 1, 32, 0⟩,
      ⟨"SVCALLPENDED", 0x8000, 15, 1, 32, 0⟩, ⟨"MEMFAULTENA", 0x10000, 16, 1, 32, 0⟩,
      ⟨"BUSFAULTENA", 0x20000, 17, 1, 32, 0⟩, ⟨"USGFAULTENA", 0x40000, 18, 1, 32, 0⟩],
  .reg 4 "CFSR" none (some 0xD28) none [
      ⟨"IACCVIOL", 0x1, 0, 1, 32, 0⟩, ⟨"DACCVIOL", 0x2, 1, 1, 32, 0⟩, ⟨"MUNSTKERR", 0x8, 3, 1, 32, 0⟩,
      ⟨"MSTKERR", 0x10, 4, 1, 32, 0⟩, ⟨"MLSPERR", 0x20, 5, 1, 32, 0⟩, ⟨"MMARVALID", 0x80, 7, 1, 32, 0⟩,
      ⟨"IBUSERR", 0x100, 8, 1, 32, 0⟩, ⟨"PRECISERR", 0x200, 9, 1, 32, 0⟩, ⟨"IMPRECISERR", 0x400, 10, 1, 32, 0⟩,
      ⟨"UNSTKERR", 0x800, 11, 1, 32, 0⟩, ⟨"STKERR", 0x1000, 12, 1, 32, 0⟩, ⟨"LSPERR", 0x2000, 13, 1, 32, 0⟩,
      ⟨"BFARVALID", 0x8000, 15, 1, 32, 0⟩, ⟨"UNDEFINSTR", 0x10000, 16, 1, 32, 0⟩,
      ⟨"INVSTATE", 0x20000, 17, 1, 32, 0⟩, ⟨"INVPC", 0x40000, 18, 1, 32, 0⟩, ⟨"NOCP", 0x80000, 19, 1, 32, 0⟩,
      ⟨"UNALIGNED", 0x1000000, 24, 1, 32, 0⟩, ⟨"DIVBYZERO", 0x2000000, 25, 1, 32, 0⟩],
  .reg 4 "HFSR" none (some 0xD2C) none [
      ⟨"VECTTBL", 0x2, 1, 1, 32, 0⟩, ⟨"FORCED", 0x40000000, 30, 1, 32, 0⟩, ⟨"DEBUGEVT", 0x80000000, 31, 1, 32, 0⟩],
  .reg 4 "DFSR" none (some 0xD30) none [
      ⟨"HALTED", 0x1, 0, 1, 32, 0⟩, ⟨"BKPT", 0x2, 1, 1, 32, 0⟩, ⟨"DWTTRAP", 0x4, 2, 1, 32, 0⟩,
      ⟨"VCATCH", 0x8, 3, 1, 32, 0⟩, ⟨"EXTERNAL", 0x10, 4, 1, 32, 0⟩],
  .reg 4 "MMFAR" none (some 0xD34) none [
      ⟨"ADDRESS", 0xFFFFFFFF, 0, 32, 32, 0⟩],
  .reg 4 "BFAR" none (some 0xD38) none [
      ⟨"ADDRESS", 0xFFFFFFFF, 0, 32, 32, 0⟩],
  .reg 4 "AFSR" none (some 0xD3C) none [
      ⟨"AUXFAULT", 0xFFFFFFFF, 0, 32, 32, 0⟩],
  .reg 1 "RESERVED_2" (some 72) none none [],
  .reg 4 "CPACR" none (some 0xD88) none [
      ⟨"CP10", 0x300000, 20, 2, 32, 0⟩, ⟨"CP11", 0xC00000, 22, 2, 32, 0⟩],
  .reg 1 "RESERVED_3" (some 424) none none [],
  .reg 4 "FPCCR" none (some 0xF34) none [
      ⟨"LSPACT", 0x1, 0, 1, 32, 0⟩, ⟨"USER", 0x2, 1, 1, 32, 0⟩, ⟨"THREAD", 0x8, 3, 1, 32, 0⟩,
      ⟨"HFRDY", 0x10, 4, 1, 32, 0⟩, ⟨"MMRDY", 0x20, 5, 1, 32, 0⟩, ⟨"BFRDY", 0x40, 6, 1, 32, 0⟩,
      ⟨"MONRDY", 0x100, 8, 1, 32, 0⟩, ⟨"LSPEN", 0x40000000, 30, 1, 32, 0⟩, ⟨"ASPEN", 0x80000000, 31, 1, 32, 0⟩],
  .reg 4 "FPCAR" none (some 0xF38) none [
      ⟨"ADDRESS", 0xFFFFFFF8, 3, 29, 32, 0⟩],
  .reg 4 "FPDSCR" none (some 0xF3C) none [
      ⟨"RMode", 0xC00000, 22, 2, 32, 0⟩, ⟨"FZ", 0x1000000, 24, 1, 32, 0⟩, ⟨"DN", 0x2000000, 25, 1, 32, 0⟩,
      ⟨"AHP", 0x4000000, 26, 1, 32, 0⟩]]

/-- `S32_SysTick_Type` and the masks of its registers, S32K148.h:12774–12780 and 12820–12867. -/
def rS32_SysTick : List Member := [
  .reg 4 "CSR" none (some 0x0) none [
      ⟨"ENABLE", 0x1, 0, 1, 32, 0⟩, ⟨"TICKINT", 0x2, 1, 1, 32, 0⟩, ⟨"CLKSOURCE", 0x4, 2, 1, 32, 0⟩,
      ⟨"COUNTFLAG", 0x10000, 16, 1, 32, 0⟩],
  .reg 4 "RVR" none (some 0x4) none [
      ⟨"RELOAD", 0xFFFFFF, 0, 24, 32, 0⟩],
  .reg 4 "CVR" none (some 0x8) none [
      ⟨"CURRENT", 0xFFFFFF, 0, 24, 32, 0⟩],
  .reg 4 "CALIB" none (some 0xC) none [
      ⟨"TENMS", 0xFFFFFF, 0, 24, 32, 0⟩, ⟨"SKEW", 0x40000000, 30, 1, 32, 0⟩, ⟨"NOREF", 0x80000000, 31, 1, 32, 0⟩]]

/-- `SAI_Type` and the masks of its registers, S32K148.h:12893–12920 and 12970–13385. -/
def rSAI : List Member := [
  .reg 4 "VERID" none (some 0x0) none [
      ⟨"FEATURE", 0xFFFF, 0, 16, 32, 0⟩, ⟨"MINOR", 0xFF0000, 16, 8, 32, 0⟩, ⟨"MAJOR", 0xFF000000, 24, 8, 32, 0⟩],
  .reg 4 "PARAM" none (some 0x4) none [
      ⟨"DATALINE", 0xF, 0, 4, 32, 0⟩, ⟨"FIFO", 0xF00, 8, 4, 32, 0⟩, ⟨"FRAME", 0xF0000, 16, 4, 32, 0⟩],
  .reg 4 "TCSR" none (some 0x8) none [
      ⟨"FRDE", 0x1, 0, 1, 32, 0⟩, ⟨"FWDE", 0x2, 1, 1, 32, 0⟩, ⟨"FRIE", 0x100, 8, 1, 32, 0⟩,
      ⟨"FWIE", 0x200, 9, 1, 32, 0⟩, ⟨"FEIE", 0x400, 10, 1, 32, 0⟩, ⟨"SEIE", 0x800, 11, 1, 32, 0⟩,
      ⟨"WSIE", 0x1000, 12, 1, 32, 0⟩, ⟨"FRF", 0x10000, 16, 1, 32, 0⟩, ⟨"FWF", 0x20000, 17, 1, 32, 0⟩,
      ⟨"FEF", 0x40000, 18, 1, 32, 0⟩, ⟨"SEF", 0x80000, 19, 1, 32, 0⟩, ⟨"WSF", 0x100000, 20, 1, 32, 0⟩,
      ⟨"SR", 0x1000000, 24, 1, 32, 0⟩, ⟨"FR", 0x2000000, 25, 1, 32, 0⟩, ⟨"BCE", 0x10000000, 28, 1, 32, 0⟩,
      ⟨"DBGE", 0x20000000, 29, 1, 32, 0⟩, ⟨"TE", 0x80000000, 31, 1, 32, 0⟩],
  .reg 4 "TCR1" none (some 0xC) none [
      ⟨"TFW", 0x7, 0, 3, 32, 0⟩],
  .reg 4 "TCR2" none (some 0x10) none [
      ⟨"DIV", 0xFF, 0, 8, 32, 0⟩, ⟨"BCD", 0x1000000, 24, 1, 32, 0⟩, ⟨"BCP", 0x2000000, 25, 1, 32, 0⟩,
      ⟨"MSEL", 0xC000000, 26, 2, 32, 0⟩, ⟨"BCI", 0x10000000, 28, 1, 32, 0⟩, ⟨"BCS", 0x20000000, 29, 1, 32, 0⟩,
      ⟨"SYNC", 0xC0000000, 30, 2, 32, 0⟩],
  .reg 4 "TCR3" none (some 0x14) none [
      ⟨"WDFL", 0xF, 0, 4, 32, 0⟩, ⟨"TCE", 0xF0000, 16, 4, 32, 0⟩, ⟨"CFR", 0xF000000, 24, 4, 32, 0⟩],
  .reg 4 "TCR4" none (some 0x18) none [
      ⟨"FSD", 0x1, 0, 1, 32, 0⟩, ⟨"FSP", 0x2, 1, 1, 32, 0⟩, ⟨"ONDEM", 0x4, 2, 1, 32, 0⟩, ⟨"FSE", 0x8, 3, 1, 32, 0⟩,
      ⟨"MF", 0x10, 4, 1, 32, 0⟩, ⟨"CHMOD", 0x20, 5, 1, 32, 0⟩, ⟨"SYWD", 0x1F00, 8, 5, 32, 0⟩,
      ⟨"FRSZ", 0xF0000, 16, 4, 32, 0⟩, ⟨"FPACK", 0x3000000, 24, 2, 32, 0⟩, ⟨"FCOMB", 0xC000000, 26, 2, 32, 0⟩,
      ⟨"FCONT", 0x10000000, 28, 1, 32, 0⟩],
  .reg 4 "TCR5" none (some 0x1C) none [
      ⟨"FBT", 0x1F00, 8, 5, 32, 0⟩, ⟨"W0W", 0x1F0000, 16, 5, 32, 0⟩, ⟨"WNW", 0x1F000000, 24, 5, 32, 0⟩],
  .reg 4 "TDR" (some 4) (some 0x20) (some 0x4) [
      ⟨"TDR", 0xFFFFFFFF, 0, 32, 32, 0⟩],
  .reg 1 "RESERVED_0" (some 16) none none [],
  .reg 4 "TFR" (some 4) (some 0x40) (some 0x4) [
      ⟨"RFP", 0xF, 0, 4, 32, 0⟩, ⟨"WFP", 0xF0000, 16, 4, 32, 0⟩, ⟨"WCP", 0x80000000, 31, 1, 32, 0⟩],
  .reg 1 "RESERVED_1" (some 16) none none [],
  .reg 4 "TMR" none (some 0x60) none [
      ⟨"TWM", 0xFFFF, 0, 16, 32, 0⟩],
  .reg 1 "RESERVED_2" (some 36) none none [],
  .reg 4 "RCSR" none (some 0x88) none [
      ⟨"FRDE", 0x1, 0, 1, 32, 0⟩, ⟨"FWDE", 0x2, 1, 1, 32, 0⟩, ⟨"FRIE", 0x100, 8, 1, 32, 0⟩,
      ⟨"FWIE", 0x200, 9, 1, 32, 0⟩, ⟨"FEIE", 0x400, 10, 1, 32, 0⟩, ⟨"SEIE", 0x800, 11, 1, 32, 0⟩,
      ⟨"WSIE", 0x1000, 12, 1, 32, 0⟩, ⟨"FRF", 0x10000, 16, 1, 32, 0⟩, ⟨"FWF", 0x20000, 17, 1, 32, 0⟩,
      ⟨"FEF", 0x40000, 18, 1, 32, 0⟩, ⟨"SEF", 0x80000, 19, 1, 32, 0⟩, ⟨"WSF", 0x100000, 20, 1, 32, 0⟩,
      ⟨"SR", 0x1000000, 24, 1, 32, 0⟩, ⟨"FR", 0x2000000, 25, 1, 32, 0⟩, ⟨"BCE", 0x10000000, 28, 1, 32, 0⟩,
      ⟨"DBGE", 0x20000000, 29, 1, 32, 0⟩, ⟨"RE", 0x80000000, 31, 1, 32, 0⟩],
  .reg 4 "RCR1" none (some 0x8C) none [
      ⟨"RFW", 0x7, 0, 3, 32, 0⟩],
  .reg 4 "RCR2" none (some 0x90) none [
      ⟨"DIV", 0xFF, 0, 8, 32, 0⟩, ⟨"BCD", 0x1000000, 24, 1, 32, 0⟩, ⟨"BCP", 0x2000000, 25, 1, 32, 0⟩,
      ⟨"MSEL", 0xC000000, 26, 2, 32, 0⟩, ⟨"BCI", 0x10000000, 28, 1, 32, 0⟩, ⟨"BCS", 0x20000000, 29, 1, 32, 0⟩,
      ⟨"SYNC", 0xC0000000, 30, 2, 32, 0⟩],
  .reg 4 "RCR3" none (some 0x94) none [
      ⟨"WDFL", 0xF, 0, 4, 32, 0⟩, ⟨"RCE", 0xF0000, 16, 4, 32, 0⟩, ⟨"CFR", 0xF000000, 24, 4, 32, 0⟩],
  .reg 4 "RCR4" none (some 0x98) none [
      ⟨"FSD", 0x1, 0, 1, 32, 0⟩, ⟨"FSP", 0x2, 1, 1, 32, 0⟩, ⟨"ONDEM", 0x4, 2, 1, 32, 0⟩, ⟨"FSE", 0x8, 3, 1, 32, 0⟩,
      ⟨"MF", 0x10, 4, 1, 32, 0⟩, ⟨"SYWD", 0x1F00, 8, 5, 32, 0⟩, ⟨"FRSZ", 0xF0000, 16, 4, 32, 0⟩,
      ⟨"FPACK", 0x3000000, 24, 2, 32, 0⟩, ⟨"FCOMB", 0xC000000, 26, 2, 32, 0⟩, ⟨"FCONT", 0x10000000, 28, 1, 32, 0⟩],
  .reg 4 "RCR5" none (some 0x9C) none [
      ⟨"FBT", 0x1F00, 8, 5, 32, 0⟩, ⟨"W0W", 0x1F0000, 16, 5, 32, 0⟩, ⟨"WNW", 0x1F000000, 24, 5, 32, 0⟩],
  .reg 4 "RDR" (some 4) (some 0xA0) (some 0x4) [
      ⟨"RDR", 0xFFFFFFFF, 0, 32, 32, 0⟩],
  .reg 1 "RESERVED_3" (some 16) none none [],
  .reg 4 "RFR" (some 4) (some 0xC0) (some 0x4) [
      ⟨"RFP", 0xF, 0, 4, 32, 0⟩, ⟨"RCP", 0x8000, 15, 1, 32, 0⟩, ⟨"WFP", 0xF0000, 16, 4, 32, 0⟩],
  .reg 1 "RESERVED_4" (some 16) none none [],
  .reg 4 "RMR" none (some 0xE0) none [
      ⟨"RWM", 0xFFFF, 0, 16, 32, 0⟩]]

/-- `SCG_Type` and the masks of its registers, S32K148.h:13406–13432 and 13472–13759. -/
def rSCG : List Member := [
  .reg 4 "VERID" none (some 0x0) none [
      ⟨"VERSION", 0xFFFFFFFF, 0, 32, 32, 0⟩],
  .reg 4 "PARAM" none (some 0x4) none [
      ⟨"CLKPRES", 0xFF, 0, 8, 32, 0⟩, ⟨"DIVPRES", 0xF8000000, 27, 5, 32, 0⟩],
  .reg 1 "RESERVED_0" (some 8) none none [],
  .reg 4 "CSR" none (some 0x10) none [
      ⟨"DIVSLOW", 0xF, 0, 4, 32, 0⟩, ⟨"DIVBUS", 0xF0, 4, 4, 32, 0⟩, ⟨"DIVCORE", 0xF0000, 16, 4, 32, 0⟩,
      ⟨"SCS", 0xF000000, 24, 4, 32, 0⟩],
  .reg 4 "RCCR" none (some 0x14) none [
      ⟨"DIVSLOW", 0xF, 0, 4, 32, 0⟩, ⟨"DIVBUS", 0xF0, 4, 4, 32, 0⟩, ⟨"DIVCORE", 0xF0000, 16, 4, 32, 0⟩,
      ⟨"SCS", 0xF000000, 24, 4, 32, 0⟩],
  .reg 4 "VCCR" none (some 0x18) none [
      ⟨"DIVSLOW", 0xF, 0, 4, 32, 0⟩, ⟨"DIVBUS", 0xF0, 4, 4, 32, 0⟩, ⟨"DIVCORE", 0xF0000, 16, 4, 32, 0⟩,
      ⟨"SCS", 0xF000000, 24, 4, 32, 0⟩],
  .reg 4 "HCCR" none (some 0x1C) none [
      ⟨"DIVSLOW", 0xF, 0, 4, 32, 0⟩, ⟨"DIVBUS", 0xF0, 4, 4, 32, 0⟩, ⟨"DIVCORE", 0xF0000, 16, 4, 32, 0⟩,
      ⟨"SCS", 0xF000000, 24, 4, 32, 0⟩],
  .reg 4 "CLKOUTCNFG" none (some 0x20) none [
      ⟨"CLKOUTSEL", 0xF000000, 24, 4, 32, 0⟩],
  .reg 1 "RESERVED_1" (some 220) none none [],
  .reg 4 "SOSCCSR" none (some 0x100) none [
      ⟨"SOSCEN", 0x1, 0, 1, 32, 0⟩, ⟨"SOSCCM", 0x10000, 16, 1, 32, 0⟩, ⟨"SOSCCMRE", 0x20000, 17, 1, 32, 0⟩,
      ⟨"LK", 0x800000, 23, 1, 32, 0⟩, ⟨"SOSCVLD", 0x1000000, 24, 1, 32, 0⟩, ⟨"SOSCSEL", 0x2000000, 25, 1, 32, 0⟩,
      ⟨"SOSCERR", 0x4000000, 26, 1, 32, 0⟩],
  .reg 4 "SOSCDIV" none (some 0x104) none [
      ⟨"SOSCDIV1", 0x7, 0, 3, 32, 0⟩, ⟨"SOSCDIV2", 0x700, 8, 3, 32, 0⟩],
  .reg 4 "SOSCCFG" none (some 0x108) none [
      ⟨"EREFS", 0x4, 2, 1, 32, 0⟩, ⟨"HGO", 0x8, 3, 1, 32, 0⟩, ⟨"RANGE", 0x30, 4, 2, 32, 0⟩],
  .reg 1 "RESERVED_2" (some 244) none none [],
  .reg 4 "SIRCCSR" none (some 0x200) none [
      ⟨"SIRCEN", 0x1, 0, 1, 32, 0⟩, ⟨"SIRCSTEN", 0x2, 1, 1, 32, 0⟩, ⟨"SIRCLPEN", 0x4, 2, 1, 32, 0⟩,
      ⟨"LK", 0x800000, 23, 1, 32, 0⟩, ⟨"SIRCVLD", 0x1000000, 24, 1, 32, 0⟩, ⟨"SIRCSEL", 0x2000000, 25, 1, 32, 0⟩],
  .reg 4 "SIRCDIV" none (some 0x204) none [
      ⟨"SIRCDIV1", 0x7, 0, 3, 32, 0⟩, ⟨"SIRCDIV2", 0x700, 8, 3, 32, 0⟩],
  .reg 4 "SIRCCFG" none (some 0x208) none [
      ⟨"RANGE", 0x1, 0, 1, 32, 0⟩],
  .reg 1 "RESERVED_3" (some 244) none none [],
  .reg 4 "FIRCCSR" none (some 0x300) none [
      ⟨"FIRCEN", 0x1, 0, 1, 32, 0⟩, ⟨"FIRCREGOFF", 0x8, 3, 1, 32, 0⟩, ⟨"LK", 0x800000, 23, 1, 32, 0⟩,
      ⟨"FIRCVLD", 0x1000000, 24, 1, 32, 0⟩, ⟨"FIRCSEL", 0x2000000, 25, 1, 32, 0⟩, ⟨"FIRCERR", 0x4000000, 26, 1, 32, 0⟩],
  .reg 4 "FIRCDIV" none (some 0x304) none [
      ⟨"FIRCDIV1", 0x7, 0, 3, 32, 0⟩, ⟨"FIRCDIV2", 0x700, 8, 3, 32, 0⟩],
  .reg 4 "FIRCCFG" none (some 0x308) none [
      ⟨"RANGE", 0x3, 0, 2, 32, 0⟩],
  .reg 1 "RESERVED_4" (some 756) none none [],
  .reg 4 "SPLLCSR" none (some 0x600) none [
      ⟨"SPLLEN", 0x1, 0, 1, 32, 0⟩, ⟨"SPLLCM", 0x10000, 16, 1, 32, 0⟩, ⟨"SPLLCMRE", 0x20000, 17, 1, 32, 0⟩,
      ⟨"LK", 0x800000, 23, 1, 32, 0⟩, ⟨"SPLLVLD", 0x1000000, 24, 1, 32, 0⟩, ⟨"SPLLSEL", 0x2000000, 25, 1, 32, 0⟩,
      ⟨"SPLLERR", 0x4000000, 26, 1, 32, 0⟩],
  .reg 4 "SPLLDIV" none (some 0x604) none [
      ⟨"SPLLDIV1", 0x7, 0, 3, 32, 0⟩, ⟨"SPLLDIV2", 0x700, 8, 3, 32, 0⟩],
  .reg 4 "SPLLCFG" none (some 0x608) none [
      ⟨"PREDIV", 0x700, 8, 3, 32, 0⟩, ⟨"MULT", 0x1F0000, 16, 5, 32, 0⟩]]

/-- `SIM_Type` and the masks of its registers, S32K148.h:13780–13804 and 13835–14233. -/
def rSIM : List Member := [
  .reg 1 "RESERVED_0" (some 4) none none [],
  .reg 4 "CHIPCTL" none (some 0x4) none [
      ⟨"ADC_INTERLEAVE_EN", 0xF, 0, 4, 32, 0⟩, ⟨"CLKOUTSEL", 0xF0, 4, 4, 32, 0⟩, ⟨"CLKOUTDIV", 0x700, 8, 3, 32, 0⟩,
      ⟨"CLKOUTEN", 0x800, 11, 1, 32, 0⟩, ⟨"TRACECLK_SEL", 0x1000, 12, 1, 32, 0⟩,
      ⟨"PDB_BB_SEL", 0x2000, 13, 1, 32, 0⟩, ⟨"ADC_SUPPLY", 0x70000, 16, 3, 32, 0⟩,
      ⟨"ADC_SUPPLYEN", 0x80000, 19, 1, 32, 0⟩, ⟨"SRAMU_RETEN", 0x100000, 20, 1, 32, 0⟩,
      ⟨"SRAML_RETEN", 0x200000, 21, 1, 32, 0⟩],
  .reg 1 "RESERVED_1" (some 4) none none [],
  .reg 4 "FTMOPT0" none (some 0xC) none [
      ⟨"FTM0FLTxSEL", 0x7, 0, 3, 32, 0⟩, ⟨"FTM1FLTxSEL", 0x70, 4, 3, 32, 0⟩, ⟨"FTM2FLTxSEL", 0x700, 8, 3, 32, 0⟩,
      ⟨"FTM3FLTxSEL", 0x7000, 12, 3, 32, 0⟩, ⟨"FTM4CLKSEL", 0x30000, 16, 2, 32, 0⟩,
      ⟨"FTM5CLKSEL", 0xC0000, 18, 2, 32, 0⟩, ⟨"FTM6CLKSEL", 0x300000, 20, 2, 32, 0⟩,
      ⟨"FTM7CLKSEL", 0xC00000, 22, 2, 32, 0⟩, ⟨"FTM0CLKSEL", 0x3000000, 24, 2, 32, 0⟩,
      ⟨"FTM1CLKSEL", 0xC000000, 26, 2, 32, 0⟩, ⟨"FTM2CLKSEL", 0x30000000, 28, 2, 32, 0⟩,
      ⟨"FTM3CLKSEL", 0xC0000000, 30, 2, 32, 0⟩],
  .reg 4 "LPOCLKS" none (some 0x10) none [
      ⟨"LPO1KCLKEN", 0x1, 0, 1, 32, 0⟩, ⟨"LPO32KCLKEN", 0x2, 1, 1, 32, 0⟩, ⟨"LPOCLKSEL", 0xC, 2, 2, 32, 0⟩,
      ⟨"RTCCLKSEL", 0x30, 4, 2, 32, 0⟩],
  .reg 1 "RESERVED_2" (some 4) none none [],
  .reg 4 "ADCOPT" none (some 0x18) none [
      ⟨"ADC0TRGSEL", 0x1, 0, 1, 32, 0⟩, ⟨"ADC0SWPRETRG", 0xE, 1, 3, 32, 0⟩, ⟨"ADC0PRETRGSEL", 0x30, 4, 2, 32, 0⟩,
      ⟨"ADC1TRGSEL", 0x100, 8, 1, 32, 0⟩, ⟨"ADC1SWPRETRG", 0xE00, 9, 3, 32, 0⟩,
      ⟨"ADC1PRETRGSEL", 0x3000, 12, 2, 32, 0⟩],
  .reg 4 "FTMOPT1" none (some 0x1C) none [
      ⟨"FTM0SYNCBIT", 0x1, 0, 1, 32, 0⟩, ⟨"FTM1SYNCBIT", 0x2, 1, 1, 32, 0⟩, ⟨"FTM2SYNCBIT", 0x4, 2, 1, 32, 0⟩,
      ⟨"FTM3SYNCBIT", 0x8, 3, 1, 32, 0⟩, ⟨"FTM1CH0SEL", 0x30, 4, 2, 32, 0⟩, ⟨"FTM2CH0SEL", 0xC0, 6, 2, 32, 0⟩,
      ⟨"FTM2CH1SEL", 0x100, 8, 1, 32, 0⟩, ⟨"FTM4SYNCBIT", 0x800, 11, 1, 32, 0⟩,
      ⟨"FTM5SYNCBIT", 0x1000, 12, 1, 32, 0⟩, ⟨"FTM6SYNCBIT", 0x2000, 13, 1, 32, 0⟩,
      ⟨"FTM7SYNCBIT", 0x4000, 14, 1, 32, 0⟩, ⟨"FTMGLDOK", 0x8000, 15, 1, 32, 0⟩,
      ⟨"FTM0_OUTSEL", 0xFF0000, 16, 8, 32, 0⟩, ⟨"FTM3_OUTSEL", 0xFF000000, 24, 8, 32, 0⟩],
  .reg 4 "MISCTRL0" none (some 0x20) none [
      ⟨"FTM_GTB_SPLIT_EN", 0x4000, 14, 1, 32, 0⟩, ⟨"FTM0_OBE_CTRL", 0x10000, 16, 1, 32, 0⟩,
      ⟨"FTM1_OBE_CTRL", 0x20000, 17, 1, 32, 0⟩, ⟨"FTM2_OBE_CTRL", 0x40000, 18, 1, 32, 0⟩,
      ⟨"FTM3_OBE_CTRL", 0x80000, 19, 1, 32, 0⟩, ⟨"FTM4_OBE_CTRL", 0x100000, 20, 1, 32, 0⟩,
      ⟨"FTM5_OBE_CTRL", 0x200000, 21, 1, 32, 0⟩, ⟨"FTM6_OBE_CTRL", 0x400000, 22, 1, 32, 0⟩,
      ⟨"FTM7_OBE_CTRL", 0x800000, 23, 1, 32, 0⟩, ⟨"RMII_CLK_OBE", 0x1000000, 24, 1, 32, 0⟩,
      ⟨"RMII_CLK_SEL", 0x2000000, 25, 1, 32, 0⟩, ⟨"QSPI_CLK_SEL", 0x4000000, 26, 1, 32, 0⟩],
  .reg 4 "SDID" none (some 0x24) none [
      ⟨"FEATURES", 0xFF, 0, 8, 32, 0⟩, ⟨"PACKAGE", 0xF00, 8, 4, 32, 0⟩, ⟨"REVID", 0xF000, 12, 4, 32, 0⟩,
      ⟨"RAMSIZE", 0xF0000, 16, 4, 32, 0⟩, ⟨"DERIVATE", 0xF00000, 20, 4, 32, 0⟩,
      ⟨"SUBSERIES", 0xF000000, 24, 4, 32, 0⟩, ⟨"GENERATION", 0xF0000000, 28, 4, 32, 0⟩],
  .reg 1 "RESERVED_3" (some 24) none none [],
  .reg 4 "PLATCGC" none (some 0x40) none [
      ⟨"CGCMSCM", 0x1, 0, 1, 32, 0⟩, ⟨"CGCMPU", 0x2, 1, 1, 32, 0⟩, ⟨"CGCDMA", 0x4, 2, 1, 32, 0⟩,
      ⟨"CGCERM", 0x8, 3, 1, 32, 0⟩, ⟨"CGCEIM", 0x10, 4, 1, 32, 0⟩],
  .reg 1 "RESERVED_4" (some 8) none none [],
  .reg 4 "FCFG1" none (some 0x4C) none [
      ⟨"DEPART", 0xF000, 12, 4, 32, 0⟩, ⟨"EEERAMSIZE", 0xF0000, 16, 4, 32, 0⟩],
  .reg 1 "RESERVED_5" (some 4) none none [],
  .reg 4 "UIDH" none (some 0x54) none [
      ⟨"UID127_96", 0xFFFFFFFF, 0, 32, 32, 0⟩],
  .reg 4 "UIDMH" none (some 0x58) none [
      ⟨"UID95_64", 0xFFFFFFFF, 0, 32, 32, 0⟩],
  .reg 4 "UIDML" none (some 0x5C) none [
      ⟨"UID63_32", 0xFFFFFFFF, 0, 32, 32, 0⟩],
  .reg 4 "UIDL" none (some 0x60) none [
      ⟨"UID31_0", 0xFFFFFFFF, 0, 32, 32, 0⟩],
  .reg 1 "RESERVED_6" (some 4) none none [],
  .reg 4 "CLKDIV4" none (some 0x68) none [
      ⟨"TRACEFRAC", 0x1, 0, 1, 32, 0⟩, ⟨"TRACEDIV", 0xE, 1, 3, 32, 0⟩, ⟨"TRACEDIVEN", 0x10000000, 28, 1, 32, 0⟩],
  .reg 4 "MISCTRL1" none (some 0x6C) none [
      ⟨"SW_TRG", 0x1, 0, 1, 32, 0⟩]]

/-- `SMC_Type` and the masks of its registers, S32K148.h:14255–14263 and 14294–14355. -/
def rSMC : List Member := [
  .reg 4 "VERID" none (some 0x0) none [
      ⟨"FEATURE", 0xFFFF, 0, 16, 32, 0⟩, ⟨"MINOR", 0xFF0000, 16, 8, 32, 0⟩, ⟨"MAJOR", 0xFF000000, 24, 8, 32, 0⟩],
  .reg 4 "PARAM" none (some 0x4) none [
      ⟨"EHSRUN", 0x1, 0, 1, 32, 0⟩, ⟨"ELLS", 0x8, 3, 1, 32, 0⟩, ⟨"ELLS2", 0x20, 5, 1, 32, 0⟩,
      ⟨"EVLLS0", 0x40, 6, 1, 32, 0⟩],
  .reg 4 "PMPROT" none (some 0x8) none [
      ⟨"AVLP", 0x20, 5, 1, 32, 0⟩, ⟨"AHSRUN", 0x80, 7, 1, 32, 0⟩],
  .reg 4 "PMCTRL" none (some 0xC) none [
      ⟨"STOPM", 0x7, 0, 3, 32, 0⟩, ⟨"VLPSA", 0x8, 3, 1, 32, 0⟩, ⟨"RUNM", 0x60, 5, 2, 32, 0⟩],
  .reg 4 "STOPCTRL" none (some 0x10) none [
      ⟨"STOPO", 0xC0, 6, 2, 32, 0⟩],
  .reg 4 "PMSTAT" none (some 0x14) none [
      ⟨"PMSTAT", 0xFF, 0, 8, 32, 0⟩]]

/-- `TRGMUX_Type` and the masks of its registers, S32K148.h:14377–14381 and 14439–14463. -/
def rTRGMUX : List Member := [
  .reg 4 "TRGMUXn" (some 32) (some 0x0) (some 0x4) [
      ⟨"SEL0", 0x7F, 0, 7, 32, 0⟩, ⟨"SEL1", 0x7F00, 8, 7, 32, 0⟩, ⟨"SEL2", 0x7F0000, 16, 7, 32, 0⟩,
      ⟨"SEL3", 0x7F000000, 24, 7, 32, 0⟩, ⟨"LK", 0x80000000, 31, 1, 32, 0⟩]]

/-- `WDOG_Type` and the masks of its registers, S32K148.h:14484–14490 and 14530–14615. -/
def rWDOG : List Member := [
  .reg 4 "CS" none (some 0x0) none [
      ⟨"STOP", 0x1, 0, 1, 32, 0⟩, ⟨"WAIT", 0x2, 1, 1, 32, 0⟩, ⟨"DBG", 0x4, 2, 1, 32, 0⟩, ⟨"TST", 0x18, 3, 2, 32, 0⟩,
      ⟨"UPDATE", 0x20, 5, 1, 32, 0⟩, ⟨"INT", 0x40, 6, 1, 32, 0⟩, ⟨"EN", 0x80, 7, 1, 32, 0⟩,
      ⟨"CLK", 0x300, 8, 2, 32, 0⟩, ⟨"RCS", 0x400, 10, 1, 32, 0⟩, ⟨"ULK", 0x800, 11, 1, 32, 0⟩,
      ⟨"PRES", 0x1000, 12, 1, 32, 0⟩, ⟨"CMD32EN", 0x2000, 13, 1, 32, 0⟩, ⟨"FLG", 0x4000, 14, 1, 32, 0⟩,
      ⟨"WIN", 0x8000, 15, 1, 32, 0⟩],
  .reg 4 "CNT" none (some 0x4) none [
      ⟨"CNTLOW", 0xFF, 0, 8, 32, 0⟩, ⟨"CNTHIGH", 0xFF00, 8, 8, 32, 0⟩],
  .reg 4 "TOVAL" none (some 0x8) none [
      ⟨"TOVALLOW", 0xFF, 0, 8, 32, 0⟩, ⟨"TOVALHIGH", 0xFF00, 8, 8, 32, 0⟩],
  .reg 4 "WIN" none (some 0xC) none [
      ⟨"WINLOW", 0xFF, 0, 8, 32, 0⟩, ⟨"WINHIGH", 0xFF00, 8, 8, 32, 0⟩]]

/-- All peripherals, S32K148.h:371–14490. -/
def peripherals : List (String × List Member) := [
  ("ADC", rADC),
  ("AIPS", rAIPS),
  ("CAN", rCAN),
  ("CMP", rCMP),
  ("CRC", rCRC),
  ("CSE_PRAM", rCSE_PRAM),
  ("DMA", rDMA),
  ("DMAMUX", rDMAMUX),
  ("EIM", rEIM),
  ("ENET", rENET),
  ("ERM", rERM),
  ("EWM", rEWM),
  ("FLEXIO", rFLEXIO),
  ("FTFC", rFTFC),
  ("FTM", rFTM),
  ("GPIO", rGPIO),
  ("LMEM", rLMEM),
  ("LPI2C", rLPI2C),
  ("LPIT", rLPIT),
  ("LPSPI", rLPSPI),
  ("LPTMR", rLPTMR),
  ("LPUART", rLPUART),
  ("MCM", rMCM),
  ("MPU", rMPU),
  ("MSCM", rMSCM),
  ("PCC", rPCC),
  ("PDB", rPDB),
  ("PMC", rPMC),
  ("PORT", rPORT),
  ("QuadSPI", rQuadSPI),
  ("RCM", rRCM),
  ("RTC", rRTC),
  ("S32_NVIC", rS32_NVIC),
  ("S32_SCB", rS32_SCB),
  ("S32_SysTick", rS32_SysTick),
  ("SAI", rSAI),
  ("SCG", rSCG),
  ("SIM", rSIM),
  ("SMC", rSMC),
  ("TRGMUX", rTRGMUX),
  ("WDOG", rWDOG)]

/-- The pointers to peripherals: name, type, address; S32K148.h:415–14499. -/
def instances : List (String × List Member × Nat) := [
  ("ADC0", rADC, 0x4003B000),
  ("ADC1", rADC, 0x40027000),
  ("AIPS", rAIPS, 0x40000000),
  ("CAN0", rCAN, 0x40024000),
  ("CAN1", rCAN, 0x40025000),
  ("CAN2", rCAN, 0x4002B000),
  ("CMP0", rCMP, 0x40073000),
  ("CRC", rCRC, 0x40032000),
  ("CSE_PRAM", rCSE_PRAM, 0x14001000),
  ("DMA", rDMA, 0x40008000),
  ("DMAMUX", rDMAMUX, 0x40021000),
  ("EIM", rEIM, 0x40019000),
  ("ENET", rENET, 0x40079000),
  ("ERM", rERM, 0x40018000),
  ("EWM", rEWM, 0x40061000),
  ("FLEXIO", rFLEXIO, 0x4005A000),
  ("FTFC", rFTFC, 0x40020000),
  ("FTM0", rFTM, 0x40038000),
  ("FTM1", rFTM, 0x40039000),
  ("FTM2", rFTM, 0x4003A000),
  ("FTM3", rFTM, 0x40026000),
  ("FTM4", rFTM, 0x4006E000),
  ("FTM5", rFTM, 0x4006F000),
  ("FTM6", rFTM, 0x40070000),
  ("FTM7", rFTM, 0x40071000),
  ("PTA", rGPIO, 0x400FF000),
  ("PTB", rGPIO, 0x400FF040),
  ("PTC", rGPIO, 0x400FF080),
  ("PTD", rGPIO, 0x400FF0C0),
  ("PTE", rGPIO, 0x400FF100),
  ("LMEM", rLMEM, 0xE0082000),
  ("LPI2C0", rLPI2C, 0x40066000),
  ("LPI2C1", rLPI2C, 0x40067000),
  ("LPIT0", rLPIT, 0x40037000),
  ("LPSPI0", rLPSPI, 0x4002C000),
  ("LPSPI1", rLPSPI, 0x4002D000),
  ("LPSPI2", rLPSPI, 0x4002E000),
  ("LPTMR0", rLPTMR, 0x40040000),
  ("LPUART0", rLPUART, 0x4006A000),
  ("LPUART1", rLPUART, 0x4006B000),
  ("LPUART2", rLPUART, 0x4006C000),
  ("MCM", rMCM, 0xE0080000),
  ("MPU", rMPU, 0x4000D000),
  ("MSCM", rMSCM, 0x40001000),
  ("PCC", rPCC, 0x40065000),
  ("PDB0", rPDB, 0x40036000),
  ("PDB1", rPDB, 0x40031000),
  ("PMC", rPMC, 0x4007D000),
  ("PORTA", rPORT, 0x40049000),
  ("PORTB", rPORT, 0x4004A000),
  ("PORTC", rPORT, 0x4004B000),
  ("PORTD", rPORT, 0x4004C000),
  ("PORTE", rPORT, 0x4004D000),
  ("QuadSPI", rQuadSPI, 0x40076000),
  ("RCM", rRCM, 0x4007F000),
  ("RTC", rRTC, 0x4003D000),
  ("S32_NVIC", rS32_NVIC, 0xE000E100),
  ("S32_SCB", rS32_SCB, 0xE000E000),
  ("S32_SysTick", rS32_SysTick, 0xE000E010),
  ("SAI0", rSAI, 0x40054000),
  ("SAI1", rSAI, 0x40055000),
  ("SCG", rSCG, 0x40064000),
  ("SIM", rSIM, 0x40048000),
  ("SMC", rSMC, 0x4007E000),
  ("TRGMUX", rTRGMUX, 0x40063000),
  ("WDOG", rWDOG, 0x40052000)]

end Uavcan.Registers
