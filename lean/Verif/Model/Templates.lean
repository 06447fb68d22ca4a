/-!
# Model of the code generation templates

`libuavcan/include/libuavcan/templates/*.j2`. A DSDL definition is modelled as far as the templates look at it: the
names, the constants (with their rational values in lowest terms, as Python's `Fraction` keeps them) and the fields,
each with a data type. `c.type_from_primitive` is Nunavut's filter, not part of the repository: it gives the name of a
C++ type for a primitive type.
-/

namespace Uavcan.Templates

/-- DSDL data types, as far as the template's test `is primitive` (StructureType.j2:10) tells them apart. -/
inductive DataType where
  /-- boolean, integer or floating point; the argument is what `c.type_from_primitive` gives -/
  | primitive (ctype : String)
  /-- `voidN`, padding -/
  | void (bits : Nat)
  | array (element : DataType)
  | composite (name : String)

/-- A constant attribute. -/
structure Constant where
  ctype : String
  name : String
  numerator : Int
  denominator : Nat

/-- A field attribute. Padding has no name in DSDL; its name here is empty. -/
structure Field where
  type : DataType
  name : String

/-- A message type. -/
structure Structure where
  short_name : String
  constants : List Constant
  fields : List Field

/-- A declaration in the generated code. -/
inductive Decl where
  /-- `static constexpr ctype name = numerator / denominator;` -/
  | constant (ctype name : String) (numerator : Int) (denominator : Nat)
  /-- `ctype name;` -/
  | member (ctype name : String)
  /-- `// …` -/
  | comment
  deriving DecidableEq

/-- `{% if field.data_type is primitive %} … {% endif %}`, StructureType.j2:10–12. -/
def emitField (f : Field) : List Decl :=
  match f.type with
  | .primitive ctype => [.member ctype f.name]
  | _ => []

/-- The declarations in the body of the `struct`, StructureType.j2:6–13. -/
def emitStructure (t : Structure) : List Decl :=
  t.constants.map (fun c => .constant c.ctype c.name c.numerator c.denominator) ++ t.fields.flatMap emitField

/-- The declarations in the body of the `class` for a union or a service, UnionType.j2:6–11 and ServiceType.j2:6–11: one
comment for every attribute (fields and constants) and another one for every field. -/
def emitClass (t : Structure) : List Decl :=
  List.replicate (t.fields.length + t.constants.length) .comment ++ List.replicate t.fields.length .comment

/-- The value C++ gives the decimal integer literals: the first of `int`, `long`, `long long` that can represent it (C++11
[lex.icon]); if there is none the program is ill-formed (`none`). -/
def literal (n : Nat) : Option Nat := if n < 2 ^ 63 then some n else none

/-- The value of `numerator / denominator`, StructureType.j2:7: a literal (with a unary minus in front of it if negative)
divided by a literal, both integers: the quotient is rounded towards zero. Overflow is not possible: the numerator is not
-2^63. -/
def constantExpr (numerator : Int) (denominator : Nat) : Option Int := do
  let n ← literal numerator.natAbs
  let d ← literal denominator
  if d = 0 then none
  else return (if numerator < 0 then -(n : Int) else n).tdiv d

/-- The C++ types of constants: `bool`, `std::uintN_t`, `std::intN_t`, and `float` or `double` with the number of digits of their
significand (24, 53), StructureType.j2:7. -/
inductive CType where
  | bool
  | unsigned (bits : Nat)
  | signed (bits : Nat)
  | float (digits : Nat)

/-- Conversion of an integer to a floating point type with `digits` digits: exact if possible, otherwise one of the two neighbours;
which one is up to the compiler (`away`: that further from zero), C++11 [conv.fpint]. For StructureType.j2:7, whose integers are
far below the largest `float`. -/
def toFloat (away : Int → Bool) (digits : Nat) (v : Int) : Int :=
  let unit := 2 ^ (v.natAbs.log2 + 1 - digits)
  let q := v.natAbs / unit
  let a := if v.natAbs % unit = 0 then v.natAbs else if away v then (q + 1) * unit else q * unit
  if v < 0 then -(a : Int) else a

/-- The value of a constant of type `t` initialised with an integer, StructureType.j2:7. -/
def convert (away : Int → Bool) : CType → Int → Int
  | .bool, v => if v = 0 then 0 else 1
  | .unsigned bits, v => v % 2 ^ bits
  | .signed bits, v => v.bmod (2 ^ bits)
  | .float digits, v => toFloat away digits v

/-! ## Include guards -/

/-- A generated header: the type it is for. -/
structure Header where
  full_name : String
  major : Nat
  minor : Nat
  deriving DecidableEq

/-- What the preprocessor knows: the macros defined and the types declared so far. -/
structure Unit where
  macros : List String
  declared : List Header

/-- `#include` of a generated header, Header.j2:15–26; `macrofy` is Nunavut's filter `c.macrofy`. The name of the macro does
not depend on the version. -/
def «include» (macrofy : String → String) (u : Unit) (h : Header) : Unit :=
  if macrofy h.full_name ∈ u.macros then u
  else { macros := macrofy h.full_name :: u.macros, declared := u.declared ++ [h] }

/-- A source file that includes these headers. -/
def includeAll (macrofy : String → String) (hs : List Header) : Unit :=
  hs.foldl («include» macrofy) ⟨[], []⟩

end Uavcan.Templates
