import Verif.Spec.Bits

/-!
# Messages

A message is a list of fields, each with a width in bits, one directly after the other in a buffer; bit `i` of a buffer or field is bit
`i % 8` of its byte `i / 8`, as in the serialisation of UAVCAN.
-/

namespace Uavcan.Spec

/-- The width of all the fields. -/
def width (fields : List (Nat × List (BitVec 8))) : Nat := (fields.map (·.1)).sum

/-- Every field is as long as it has to be. -/
def Hold (fields : List (Nat × List (BitVec 8))) : Prop := ∀ x ∈ fields, x.1 ≤ 8 * x.2.length ∧ x.2.length < 2 ^ 61

/-- Every bit of every field is where it belongs in the message that starts at position `p`. -/
def Placed (fields : List (Nat × List (BitVec 8))) (p : Nat) (buf : List (BitVec 8)) : Prop :=
  ∀ pre w f post, fields = pre ++ (w, f) :: post → ∀ k, k < w → bit buf (p + width pre + k) = bit f k

/-- The same fields, as far as their bits are concerned. -/
def SameFields (a b : List (Nat × List (BitVec 8))) : Prop :=
  a.map (·.1) = b.map (·.1) ∧ ∀ (i w : Nat) (f g : List (BitVec 8)), a[i]? = some (w, f) → b[i]? = some (w, g) → ∀ k, k < w → bit f k = bit g k

end Uavcan.Spec
