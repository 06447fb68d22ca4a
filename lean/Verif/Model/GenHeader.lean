import Verif.Model.Templates

/-!
# Model of whole generated headers

What the templates libuavcan/include/libuavcan/templates/*.j2 write for a DSDL definition, and the rules of
C++ that decide whether a compiler accepts it. Nunavut's filters `cpp.open_namespace` and
`cpp.close_namespace` are taken to write the components of the namespace as they are, and
`c.type_from_primitive` to name a type declared by `<cstdint>` or built in. Simplification: comments are taken
to be comments, which holds as long as no path or documentation in them contains `*/`.
-/

namespace Uavcan.Templates

/-- Which template is used: StructureType.j2, UnionType.j2 or ServiceType.j2 (Nunavut selects by the kind of
the type). -/
inductive Kind where
  | structure
  | union
  | service
deriving DecidableEq, Repr

/-- A DSDL definition: `T.full_namespace` in components, the kind, and what the templates read of it. -/
structure Definition where
  namespaces : List String
  kind : Kind
  body : Structure

/-- A generated header: the macro of its include guard, which it defines to be empty, and what is between the
guards. -/
structure HeaderText where
  guard : String
  namespaces : List String
  className : String
  decls : List Decl

/-- Header.j2:15–26 (the guard is `T.full_name | c.macrofy`) around StructureType.j2:4–15, UnionType.j2:4–12 or ServiceType.j2:4–12. -/
def generate (macrofy : String → String) (d : Definition) : HeaderText where
  guard := macrofy (".".intercalate (d.namespaces ++ [d.body.short_name]))
  namespaces := d.namespaces
  className := d.body.short_name
  decls := match d.kind with
    | .structure => emitStructure d.body
    | .union => emitClass d.body
    | .service => emitClass d.body

/-- The keywords and alternative tokens of C++11 ([lex.key], [lex.digraph]), which are no identifiers. No
definition of the repository. -/
def keywords : List String :=
  ["alignas", "alignof", "asm", "auto", "bool", "break", "case", "catch", "char", "char16_t", "char32_t",
   "class", "const", "constexpr", "const_cast", "continue", "decltype", "default", "delete", "do", "double",
   "dynamic_cast", "else", "enum", "explicit", "export", "extern", "false", "float", "for", "friend", "goto",
   "if", "inline", "int", "long", "mutable", "namespace", "new", "noexcept", "nullptr", "operator", "private",
   "protected", "public", "register", "reinterpret_cast", "return", "short", "signed", "sizeof", "static",
   "static_assert", "static_cast", "struct", "switch", "template", "this", "thread_local", "throw", "true",
   "try", "typedef", "typeid", "typename", "union", "unsigned", "using", "virtual", "void", "volatile",
   "wchar_t", "while", "and", "and_eq", "bitand", "bitor", "compl", "not", "not_eq", "or", "or_eq", "xor",
   "xor_eq"]

/-- The name a declaration introduces. -/
def Decl.name? : Decl → Option String
  | .constant _ n _ _ => some n
  | .member _ n => some n
  | .comment => none

/-- The object-like macros of `<cstdint>`, which every header includes (Header.j2:18): [cstdint.syn] of C++11, 7.18.2 and 7.18.3 of C99.
(Macros with arguments, like `INT8_C`, do not matter: they are replaced only in front of a parenthesis.) -/
def cstdintMacros : List String :=
  ["INT8_MIN", "INT16_MIN", "INT32_MIN", "INT64_MIN", "INT8_MAX", "INT16_MAX", "INT32_MAX", "INT64_MAX",
   "UINT8_MAX", "UINT16_MAX", "UINT32_MAX", "UINT64_MAX",
   "INT_LEAST8_MIN", "INT_LEAST16_MIN", "INT_LEAST32_MIN", "INT_LEAST64_MIN",
   "INT_LEAST8_MAX", "INT_LEAST16_MAX", "INT_LEAST32_MAX", "INT_LEAST64_MAX",
   "UINT_LEAST8_MAX", "UINT_LEAST16_MAX", "UINT_LEAST32_MAX", "UINT_LEAST64_MAX",
   "INT_FAST8_MIN", "INT_FAST16_MIN", "INT_FAST32_MIN", "INT_FAST64_MIN",
   "INT_FAST8_MAX", "INT_FAST16_MAX", "INT_FAST32_MAX", "INT_FAST64_MAX",
   "UINT_FAST8_MAX", "UINT_FAST16_MAX", "UINT_FAST32_MAX", "UINT_FAST64_MAX",
   "INTPTR_MIN", "INTPTR_MAX", "UINTPTR_MAX", "INTMAX_MIN", "INTMAX_MAX", "UINTMAX_MAX",
   "PTRDIFF_MIN", "PTRDIFF_MAX", "SIG_ATOMIC_MIN", "SIG_ATOMIC_MAX", "SIZE_MAX",
   "WCHAR_MIN", "WCHAR_MAX", "WINT_MIN", "WINT_MAX"]

/-- What the implementation adds: further object-like macros that are defined after `#include <cstdint>` (Header.j2:18), and the names
which that declares in the global namespace (C++11 [headers] leaves open whether it does). -/
structure Env where
  macros : List String
  globals : List String

/-- Whether the compiler sees an identifier where the header has this name: it must be no keyword, no macro of `<cstdint>` or of the
implementation, and not the macro of the guard, which is replaced by nothing (Header.j2:16). -/
def identifier (e : Env) (guard n : String) : Bool :=
  !keywords.contains n && !cstdintMacros.contains n && !e.macros.contains n && n != guard

/-- The type a declaration uses. -/
def Decl.type? : Decl → Option String
  | .constant t _ _ _ => some t
  | .member t _ => some t
  | .comment => none

/-- Whether C++ accepts a declaration in the class (StructureType.j2:7, 11): the name must be an identifier; the
initializer of a constant must be well-formed; a static member may not have the name of its class
([class.mem]). -/
def declAccepted (e : Env) (guard className : String) : Decl → Bool
  | .constant _ n num den => identifier e guard n && n != className && (constantExpr num den).isSome
  | .member _ n => identifier e guard n
  | .comment => true

/-- Whether the names are different. -/
def distinct : List String → Bool
  | [] => true
  | n :: ns => !ns.contains n && distinct ns

/-- The names the header declares: namespaces, class and members. -/
def HeaderText.names (h : HeaderText) : List String := h.namespaces ++ [h.className] ++ h.decls.filterMap Decl.name?

/-- The types the header uses. -/
def HeaderText.types (h : HeaderText) : List String := h.decls.filterMap Decl.type?

/-- Whether the header by itself is well-formed C++11. A name that the header declares may not be that of a type it uses: a namespace
or class of that name hides the type, and a member of that name changes its meaning in the class ([basic.scope.class]; no
diagnostic is required for this one, but GCC gives one). The outermost name may not be declared already. The guard may not be a
type used, which would vanish. -/
def accepted (e : Env) (h : HeaderText) : Bool :=
  h.namespaces.all (identifier e h.guard) && identifier e h.guard h.className &&
    h.decls.all (declAccepted e h.guard h.className) && distinct (h.decls.filterMap Decl.name?) &&
    h.names.all (fun n => !h.types.contains n) && h.names.head?.all (fun n => !e.globals.contains n) &&
    !h.types.contains h.guard

end Uavcan.Templates
