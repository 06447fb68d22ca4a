import Verif.Model.Startup

/-!
# Specification of the start-up code

What memory has to look like afterwards, address by address.
-/

namespace Uavcan.Startup

/-- `n` bytes from `a` on and `m` bytes from `b` on have none in common. -/
def Apart (a n b m : Nat) : Prop := n = 0 ∨ m = 0 ∨ a + n ≤ b ∨ b + m ≤ a

instance (a n b m : Nat) : Decidable (Apart a n b m) := by unfold Apart; infer_instance

/-- `a` is one of the `n` bytes from `b` on. -/
def In (a b n : Nat) : Prop := b ≤ a ∧ a < b + n

instance (a b n : Nat) : Decidable (In a b n) := by unfold In; infer_instance

namespace Layout

def dataSize (l : Layout) : Nat := l.dataEnd - l.dataRom
def codeSize (l : Layout) : Nat := l.codeEnd - l.codeRom
def bssSize (l : Layout) : Nat := l.bssEnd - l.bssStart
/-- The number of bytes of vector table to be moved. -/
def movedVectors (l : Layout) : Nat := if l.vectorRam = l.vectorTable then 0 else l.vectorSize

/-- A layout without overlaps between what is written, nor between what is written and what is read. -/
structure Valid (l : Layout) : Prop where
  words : l.vectorSize % 4 = 0
  data : l.dataRom ≤ l.dataEnd
  code : l.codeRom ≤ l.codeEnd
  bss : l.bssStart ≤ l.bssEnd
  vecData : Apart l.vectorRam l.movedVectors l.dataRam l.dataSize
  vecCode : Apart l.vectorRam l.movedVectors l.codeRam l.codeSize
  vecBss : Apart l.vectorRam l.movedVectors l.bssStart l.bssSize
  dataCode : Apart l.dataRam l.dataSize l.codeRam l.codeSize
  dataBss : Apart l.dataRam l.dataSize l.bssStart l.bssSize
  codeBss : Apart l.codeRam l.codeSize l.bssStart l.bssSize
  srcVec : Apart l.vectorTable l.movedVectors l.vectorRam l.movedVectors
  srcDataVec : Apart l.dataRom l.dataSize l.vectorRam l.movedVectors
  srcDataData : Apart l.dataRom l.dataSize l.dataRam l.dataSize
  srcCodeVec : Apart l.codeRom l.codeSize l.vectorRam l.movedVectors
  srcCodeData : Apart l.codeRom l.codeSize l.dataRam l.dataSize
  srcCodeCode : Apart l.codeRom l.codeSize l.codeRam l.codeSize

/-- What memory is to be like after start-up, given what it was before. -/
structure Initialised (l : Layout) (before after : Mem) : Prop where
  vectors : ∀ i, i < l.movedVectors → after (l.vectorRam + i) = before (l.vectorTable + i)
  data : ∀ i, i < l.dataSize → after (l.dataRam + i) = before (l.dataRom + i)
  code : ∀ i, i < l.codeSize → after (l.codeRam + i) = before (l.codeRom + i)
  bss : ∀ i, i < l.bssSize → after (l.bssStart + i) = 0
  rest : ∀ a, ¬ In a l.vectorRam l.movedVectors → ¬ In a l.dataRam l.dataSize → ¬ In a l.codeRam l.codeSize →
    ¬ In a l.bssStart l.bssSize → after a = before a

end Layout

end Uavcan.Startup
