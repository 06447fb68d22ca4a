import Verif.Model.GenHeader
import Verif.Props.Templates

/-!
# C96: every generated header compiles
-/

namespace Uavcan.Templates

/-- What DSDL itself guarantees: the names of the attributes of a definition differ (padding has no name), and
values are given in lowest terms with a positive denominator. -/
structure ValidDsdl (d : Definition) : Prop where
  names : (d.body.constants.map Constant.name ++ (d.body.fields.filter Field.isPrimitive).map Field.name).Nodup
  values : ∀ c ∈ d.body.constants, 0 < c.denominator ∧ Nat.Coprime c.numerator.natAbs c.denominator

/-- Names DSDL does not allow, of those that matter here (the DSDL specification reserves them together with
the families `uint8`, `int8`, `float16`, `void1`, …). -/
def dsdlReserved : List String :=
  ["truncated", "saturated", "true", "false", "bool", "int", "uint", "float", "void", "optional", "aligned", "const",
   "struct", "super", "template", "enum", "self", "and", "or", "not", "auto", "type", "con", "prn", "aux", "nul"]

/-- The names the header of a definition uses: those of its namespace and its type, and for a structure those of its
constants and of its fields of primitive type. -/
def Uses (d : Definition) (n : String) : Prop :=
  n ∈ d.namespaces ∨ n = d.body.short_name ∨
    (d.kind = .structure ∧ ((∃ c ∈ d.body.constants, n = c.name) ∨
      ∃ f ∈ d.body.fields, (∃ t, f.type = .primitive t) ∧ n = f.name))

/-- The types the header of a definition uses: for a structure those of its constants and of its fields of primitive type. -/
def UsesType (d : Definition) (t : String) : Prop :=
  d.kind = .structure ∧ ((∃ c ∈ d.body.constants, t = c.ctype) ∨ ∃ f ∈ d.body.fields, f.type = .primitive t)

/-- The property as stated in `properties.jsonl`. -/
def C96_Statement (e : Env) : Prop :=
  ∀ (macrofy : String → String) (d : Definition), ValidDsdl d → (∀ n, Uses d n → n ∉ dsdlReserved) →
    accepted e (generate macrofy d) = true

theorem distinct_iff (ns : List String) : distinct ns = true ↔ ns.Nodup := by
  induction ns with
  | nil => simp [distinct]
  | cons n ns ih => simp [distinct, ih]

/-- The names that are no identifiers in a header with this guard. -/
def Taken (e : Env) (guard n : String) : Prop := n ∈ keywords ∨ n ∈ cstdintMacros ∨ n ∈ e.macros ∨ n = guard

theorem identifier_iff (e : Env) (g n : String) : identifier e g n = true ↔ ¬ Taken e g n := by
  simp [identifier, Taken, and_assoc]

theorem names_structure (t : Structure) :
    (emitStructure t).filterMap Decl.name? =
      t.constants.map Constant.name ++ (t.fields.filter Field.isPrimitive).map Field.name := by
  unfold emitStructure
  rw [List.filterMap_append, List.filterMap_map]
  congr 1
  · induction t.constants with
    | nil => rfl
    | cons c cs ih => simp_all [Decl.name?]
  · induction t.fields with
    | nil => rfl
    | cons f fs ih =>
      rw [List.flatMap_cons, List.filterMap_append, ih]
      rcases f with ⟨ty, n⟩
      cases ty <;> rfl

theorem types_structure (t : Structure) (x : String) : x ∈ (emitStructure t).filterMap Decl.type? ↔
    (∃ c ∈ t.constants, x = c.ctype) ∨ ∃ f ∈ t.fields, f.type = .primitive x := by
  unfold emitStructure
  simp only [List.filterMap_append, List.mem_append, List.mem_filterMap, List.mem_map, List.mem_flatMap]
  refine or_congr ?_ ?_
  · constructor
    · rintro ⟨_, ⟨c, hc, rfl⟩, h⟩
      injection h with h
      exact ⟨c, hc, h.symm⟩
    · rintro ⟨c, hc, rfl⟩
      exact ⟨_, ⟨c, hc, rfl⟩, rfl⟩
  · constructor
    · rintro ⟨dcl, ⟨f, hf, hm⟩, h⟩
      unfold emitField at hm
      split at hm
      · rename_i ty hty
        simp only [List.mem_singleton] at hm
        subst hm
        injection h with h
        exact ⟨f, hf, by rw [hty, h]⟩
      · simp at hm
    · rintro ⟨f, hf, hty⟩
      exact ⟨.member x f.name, ⟨f, hf, by simp [emitField, hty]⟩, rfl⟩

theorem decls_structure (e : Env) (g n : String) (t : Structure) :
    (emitStructure t).all (declAccepted e g n) = true ↔
      (∀ c ∈ t.constants, ¬ Taken e g c.name ∧ c.name ≠ n ∧ (constantExpr c.numerator c.denominator).isSome) ∧
      ∀ f ∈ t.fields, (∃ ty, f.type = .primitive ty) → ¬ Taken e g f.name := by
  unfold emitStructure
  rw [List.all_append, Bool.and_eq_true, List.all_eq_true, List.all_eq_true]
  constructor
  · rintro ⟨h1, h2⟩
    refine ⟨fun c hc => ?_, fun f hf ⟨ty, hty⟩ => ?_⟩
    · have := h1 _ (List.mem_map.2 ⟨c, hc, rfl⟩)
      simp only [declAccepted, Bool.and_eq_true, identifier_iff, bne_iff_ne] at this
      exact ⟨this.1.1, this.1.2, this.2⟩
    · have := h2 (.member ty f.name) (List.mem_flatMap.2 ⟨f, hf, by simp [emitField, hty]⟩)
      simpa only [declAccepted, identifier_iff] using this
  · rintro ⟨h1, h2⟩
    refine ⟨fun x hx => ?_, fun x hx => ?_⟩
    · obtain ⟨c, hc, rfl⟩ := List.mem_map.1 hx
      obtain ⟨a, b, e⟩ := h1 c hc
      simp only [declAccepted, Bool.and_eq_true, identifier_iff, bne_iff_ne]
      exact ⟨⟨a, b⟩, e⟩
    · obtain ⟨f, hf, hx⟩ := List.mem_flatMap.1 hx
      unfold emitField at hx
      split at hx
      · rename_i ty hty
        simp only [List.mem_singleton] at hx
        subst hx
        simpa only [declAccepted, identifier_iff] using h2 f hf ⟨ty, hty⟩
      · simp at hx

theorem class_accepted (e : Env) (g n : String) (t : Structure) :
    (emitClass t).all (declAccepted e g n) = true ∧ (emitClass t).filterMap Decl.name? = [] ∧ (emitClass t).filterMap Decl.type? = [] := by
  unfold emitClass
  refine ⟨?_, ?_, ?_⟩
  · simp [declAccepted]
  · simp [Decl.name?]
  · simp [Decl.type?]

/-- The macro of the include guard. -/
def guardOf (macrofy : String → String) (d : Definition) : String :=
  macrofy (".".intercalate (d.namespaces ++ [d.body.short_name]))

theorem uses_iff (macrofy : String → String) (d : Definition) (n : String) : n ∈ (generate macrofy d).names ↔ Uses d n := by
  obtain ⟨ns, k, body⟩ := d
  unfold HeaderText.names Uses generate
  cases k with
  | «structure» =>
    simp only [List.append_assoc, List.mem_append, List.mem_singleton, true_and, names_structure]
    refine or_congr Iff.rfl (or_congr Iff.rfl (or_congr ?_ ?_))
    · simp [eq_comm]
    · simp only [List.mem_map, List.mem_filter]
      constructor
      · rintro ⟨f, ⟨hf, hp⟩, rfl⟩
        refine ⟨f, hf, ?_, rfl⟩
        cases hty : f.type with
        | primitive t => exact ⟨t, rfl⟩
        | _ => simp [Field.isPrimitive, hty] at hp
      · rintro ⟨f, hf, ⟨t, ht⟩, rfl⟩
        exact ⟨f, ⟨hf, by simp [Field.isPrimitive, ht]⟩, rfl⟩
  | union => simp [(class_accepted ⟨[], []⟩ "" "" body).2.1]
  | service => simp [(class_accepted ⟨[], []⟩ "" "" body).2.1]

theorem usesType_iff (macrofy : String → String) (d : Definition) (t : String) : t ∈ (generate macrofy d).types ↔ UsesType d t := by
  obtain ⟨ns, k, body⟩ := d
  unfold HeaderText.types UsesType generate
  cases k with
  | «structure» => simp only [true_and, types_structure]
  | union => simp [(class_accepted ⟨[], []⟩ "" "" body).2.2]
  | service => simp [(class_accepted ⟨[], []⟩ "" "" body).2.2]

theorem head_names (macrofy : String → String) (d : Definition) :
    (generate macrofy d).names.head? = (d.namespaces ++ [d.body.short_name]).head? := by
  unfold HeaderText.names generate
  simp only
  cases d.namespaces <;> rfl

/-- C96, partial: exactly which headers compile. None of the names the header declares may be a keyword of C++, a macro of `<cstdint>` or
of the implementation, the name of the include guard, or a type that the header uses; the outermost may not be declared already;
and if it is of a structure then no constant may have the name of the type, and the numerators and denominators of all constants
must be below 2^63. Missing: the other definitions DSDL allows. -/
theorem C96_exact_partial (e : Env) (macrofy : String → String) (d : Definition) (hd : ValidDsdl d) :
    accepted e (generate macrofy d) = true ↔
      (∀ n, Uses d n → n ∉ keywords ∧ n ∉ cstdintMacros ∧ n ∉ e.macros ∧ n ≠ guardOf macrofy d ∧ ¬ UsesType d n) ∧
      (∀ n, (d.namespaces ++ [d.body.short_name]).head? = some n → n ∉ e.globals) ∧ ¬ UsesType d (guardOf macrofy d) ∧
      (d.kind = .structure → ∀ c ∈ d.body.constants, c.name ≠ d.body.short_name ∧
        c.numerator.natAbs < 2 ^ 63 ∧ c.denominator < 2 ^ 63) := by
  have hc : ∀ c ∈ d.body.constants, ((constantExpr c.numerator c.denominator).isSome = true ↔
      c.numerator.natAbs < 2 ^ 63 ∧ c.denominator < 2 ^ 63) := by
    intro c hc
    rw [constantExpr_eq _ _ (hd.values c hc).1]
    split <;> simp_all
  have hg : (generate macrofy d).guard = guardOf macrofy d := rfl
  have ht : ((∀ n, Uses d n → n ∉ keywords ∧ n ∉ cstdintMacros ∧ n ∉ e.macros ∧ n ≠ guardOf macrofy d ∧ ¬ UsesType d n)) ↔
      (∀ n, Uses d n → ¬ Taken e (guardOf macrofy d) n) ∧ ∀ n, Uses d n → ¬ UsesType d n := by
    constructor
    · intro h
      exact ⟨fun n hn => by simp [Taken, h n hn], fun n hn => (h n hn).2.2.2.2⟩
    · rintro ⟨h1, h2⟩ n hn
      have := h1 n hn
      simp only [Taken, not_or] at this
      exact ⟨this.1, this.2.1, this.2.2.1, this.2.2.2, h2 n hn⟩
  rw [ht]
  have e1 : (generate macrofy d).names.all (fun n => !(generate macrofy d).types.contains n) = true ↔ ∀ n, Uses d n → ¬ UsesType d n := by
    rw [List.all_eq_true]
    simp only [Bool.not_eq_true', List.contains_eq_mem, decide_eq_false_iff_not, uses_iff, usesType_iff]
  have e2 : (generate macrofy d).names.head?.all (fun n => !e.globals.contains n) = true ↔
      ∀ n, (d.namespaces ++ [d.body.short_name]).head? = some n → n ∉ e.globals := by
    rw [head_names]
    cases (d.namespaces ++ [d.body.short_name]).head? <;> simp
  have e3 : (!(generate macrofy d).types.contains (generate macrofy d).guard) = true ↔ ¬ UsesType d (guardOf macrofy d) := by
    simp only [Bool.not_eq_true', List.contains_eq_mem, decide_eq_false_iff_not, usesType_iff, hg]
  unfold accepted
  rw [Bool.and_eq_true, Bool.and_eq_true, Bool.and_eq_true, e1, e2, e3]
  have key : ((generate macrofy d).namespaces.all (identifier e (generate macrofy d).guard) &&
      identifier e (generate macrofy d).guard (generate macrofy d).className &&
      (generate macrofy d).decls.all (declAccepted e (generate macrofy d).guard (generate macrofy d).className) &&
      distinct ((generate macrofy d).decls.filterMap Decl.name?)) = true ↔
      (∀ n, Uses d n → ¬ Taken e (guardOf macrofy d) n) ∧ (d.kind = .structure → ∀ c ∈ d.body.constants, c.name ≠ d.body.short_name ∧
        c.numerator.natAbs < 2 ^ 63 ∧ c.denominator < 2 ^ 63) := by
    clear e1 e2 e3 ht
    unfold Uses
    simp only [Bool.and_eq_true, identifier_iff, distinct_iff, hg]
    rw [List.all_eq_true]
    simp only [identifier_iff]
    obtain ⟨ns, k, body⟩ := d
    have hn := hd.names
    simp only at hn hc
    generalize guardOf macrofy _ = g
    cases k with
    | «structure» =>
      have h := decls_structure e g body.short_name body
      simp only [generate, h, names_structure, hn, and_true, true_and, forall_const]
      constructor
      · rintro ⟨⟨h1, h2⟩, h3, h4⟩
        refine ⟨?_, fun c hc' => ⟨(h3 c hc').2.1, (hc c hc').1 (h3 c hc').2.2⟩⟩
        rintro n (hn | rfl | ⟨c, hc, rfl⟩ | ⟨f, hf, hty, rfl⟩)
        · exact h1 n hn
        · exact h2
        · exact (h3 c hc).1
        · exact h4 f hf hty
      · rintro ⟨h1, h2⟩
        exact ⟨⟨fun n hn => h1 n (Or.inl hn), h1 _ (Or.inr (Or.inl rfl))⟩,
          fun c hc' => ⟨h1 _ (Or.inr (Or.inr (Or.inl ⟨c, hc', rfl⟩))), (h2 c hc').1, (hc c hc').2 (h2 c hc').2⟩,
          fun f hf hty => h1 _ (Or.inr (Or.inr (Or.inr ⟨f, hf, hty, rfl⟩)))⟩
    | union =>
      have h := class_accepted e g body.short_name body
      simp only [generate, h.1, h.2.1, List.nodup_nil, and_true, reduceCtorEq, false_and, or_false, false_implies]
      constructor
      · rintro ⟨h1, h2⟩ n (hn | rfl)
        · exact h1 n hn
        · exact h2
      · exact fun h1 => ⟨fun n hn => h1 n (Or.inl hn), h1 _ (Or.inr rfl)⟩
    | service =>
      have h := class_accepted e g body.short_name body
      simp only [generate, h.1, h.2.1, List.nodup_nil, and_true, reduceCtorEq, false_and, or_false, false_implies]
      constructor
      · rintro ⟨h1, h2⟩ n (hn | rfl)
        · exact h1 n hn
        · exact h2
      · exact fun h1 => ⟨fun n hn => h1 n (Or.inl hn), h1 _ (Or.inr rfl)⟩
  rw [key]
  constructor
  · rintro ⟨⟨⟨⟨a, b⟩, c⟩, f⟩, g⟩; exact ⟨⟨a, c⟩, f, g, b⟩
  · rintro ⟨⟨a, c⟩, f, g, b⟩; exact ⟨⟨⟨⟨a, b⟩, c⟩, f⟩, g⟩

/-- A definition in `uavcan/register`, as the regulated data types have them. -/
def registerAccess : Definition := ⟨["uavcan", "register"], .service, ⟨"Access", [], []⟩⟩

/-- A message with the field `delete`. -/
def deleteField : Definition := ⟨["vendor"], .structure, ⟨"Request", [], [⟨.primitive "bool", "delete"⟩]⟩⟩

/-- A message with a constant of its own name. -/
def ownName : Definition := ⟨["vendor"], .structure, ⟨"MAX", [⟨"uint8_t", "MAX", 255, 1⟩], []⟩⟩

/-- A message with the greatest `uint64` as a constant. -/
def bigConstant : Definition := ⟨["vendor"], .structure, ⟨"Limits", [⟨"uint64_t", "MAX", 2 ^ 64 - 1, 1⟩], []⟩⟩

/-- A message that compiles. -/
def heartbeat : Definition :=
  ⟨["uavcan", "node"], .structure, ⟨"Heartbeat", [⟨"uint16_t", "MAX_PUBLICATION_PERIOD", 1, 1⟩],
    [⟨.primitive "uint32_t", "uptime"⟩, ⟨.void 2, ""⟩, ⟨.void 3, ""⟩, ⟨.composite "Health", "health"⟩]⟩⟩

/-- A message with the constant `INT8_MAX`. -/
def macroName : Definition := ⟨["vendor"], .structure, ⟨"Limits", [⟨"int8_t", "INT8_MAX", 127, 1⟩], []⟩⟩

/-- A message with a field that has the name of its type. -/
def typeName : Definition := ⟨["vendor"], .structure, ⟨"Sizes", [], [⟨.primitive "uint8_t", "uint8_t"⟩]⟩⟩

theorem rejected (e : Env) (d : Definition) (hd : ValidDsdl d) (m : String → String) (n : String) (hu : Uses d n)
    (hk : n ∈ keywords ∨ n ∈ cstdintMacros ∨ UsesType d n) : accepted e (generate m d) = false := by
  cases h : accepted e (generate m d)
  · rfl
  · have := ((C96_exact_partial e m d hd).1 h).1 n hu
    rcases hk with hk | hk | hk
    · exact absurd hk this.1
    · exact absurd hk this.2.1
    · exact absurd hk this.2.2.2.2

/-- C96: 84 different names (73 keywords and 11 alternative tokens) are rejected wherever they are written, and so are the 51 macros of
`<cstdint>`. -/
theorem C96_keywords : (keywords ++ cstdintMacros).Nodup ∧ keywords.length = 73 + 11 ∧ cstdintMacros.length = 51 ∧
    ∀ k ∈ keywords ++ cstdintMacros, ∀ (e : Env) (m : String → String) (d : Definition), ValidDsdl d → Uses d k →
      accepted e (generate m d) = false :=
  ⟨by decide +kernel, by decide, by decide, fun k hk e m d hd hu => rejected e d hd m k hu (by
    rcases List.mem_append.1 hk with h | h
    · exact .inl h
    · exact .inr (.inl h))⟩

/-- C96: the property as stated is false. Whatever the implementation and the macro of the guard are, a service in the namespace
`register` and a message with a field named `delete` are rejected because of the keywords, a message with a constant of its own name
and one with a large `uint64` constant because of the constant, one with a constant named `INT8_MAX` because that is a macro, and
one with a field named `uint8_t` of that type. -/
theorem C96_full_statement_fails : (∀ e, ¬ C96_Statement e) ∧
    ∀ e m, accepted e (generate m registerAccess) = false ∧ accepted e (generate m deleteField) = false ∧
      accepted e (generate m ownName) = false ∧ accepted e (generate m bigConstant) = false ∧
      accepted e (generate m macroName) = false ∧ accepted e (generate m typeName) = false := by
  have v1 : ValidDsdl registerAccess := ⟨by simp [registerAccess], by simp [registerAccess]⟩
  have r1 : ∀ e m, accepted e (generate m registerAccess) = false := fun e m =>
    rejected e _ v1 m "register" (Or.inl (by decide)) (.inl (by decide))
  refine ⟨fun e h => ?_, fun e m => ⟨r1 e m, ?_, ?_, ?_, ?_, ?_⟩⟩
  · have := h id registerAccess v1 (by
      rintro n (hn | rfl | ⟨h, _⟩)
      · simp only [registerAccess, List.mem_cons, List.not_mem_nil, or_false] at hn
        rcases hn with rfl | rfl <;> decide
      · decide
      · cases h)
    rw [r1 e id] at this
    cases this
  · exact rejected e _ ⟨by decide, by simp [deleteField]⟩ m "delete"
      (Or.inr (Or.inr ⟨rfl, Or.inr ⟨_, List.mem_singleton.2 rfl, ⟨_, rfl⟩, rfl⟩⟩)) (.inl (by decide))
  · have hv : ValidDsdl ownName := ⟨by simp [ownName], by simp [ownName]⟩
    cases h : accepted e (generate m ownName)
    · rfl
    · exact absurd rfl (((C96_exact_partial e m _ hv).1 h).2.2.2 rfl _ (List.mem_singleton.2 rfl)).1
  · have hv : ValidDsdl bigConstant := ⟨by simp [bigConstant], by simp [bigConstant]⟩
    cases h : accepted e (generate m bigConstant)
    · rfl
    · have := (((C96_exact_partial e m _ hv).1 h).2.2.2 rfl _ (List.mem_singleton.2 rfl)).2.1
      simp at this
  · exact rejected e _ ⟨by decide, by simp [macroName]⟩ m "INT8_MAX"
      (Or.inr (Or.inr ⟨rfl, Or.inl ⟨_, List.mem_singleton.2 rfl, rfl⟩⟩)) (.inr (.inl (by decide)))
  · exact rejected e _ ⟨by decide, by simp [typeName]⟩ m "uint8_t"
      (Or.inr (Or.inr ⟨rfl, Or.inr ⟨_, List.mem_singleton.2 rfl, ⟨_, rfl⟩, rfl⟩⟩))
      (.inr (.inr ⟨rfl, Or.inr ⟨_, List.mem_singleton.2 rfl, rfl⟩⟩))

/-- C96, partial: unions and services compile whatever their fields and constants are, because they declare nothing. -/
theorem C96_class_partial (e : Env) (macrofy : String → String) (d : Definition) (hd : ValidDsdl d) (hk : d.kind ≠ .structure)
    (hn : ∀ n ∈ d.namespaces ++ [d.body.short_name], n ∉ keywords ∧ n ∉ cstdintMacros ∧ n ∉ e.macros ∧ n ≠ guardOf macrofy d)
    (h0 : ∀ n, (d.namespaces ++ [d.body.short_name]).head? = some n → n ∉ e.globals) :
    accepted e (generate macrofy d) = true ∧ (generate macrofy d).decls.filterMap Decl.name? = [] := by
  constructor
  · refine (C96_exact_partial e macrofy d hd).2 ⟨?_, h0, fun h => hk h.1, fun h => absurd h hk⟩
    rintro n (h | rfl | ⟨h, _⟩)
    · have := hn n (List.mem_append_left _ h); exact ⟨this.1, this.2.1, this.2.2.1, this.2.2.2, fun h => hk h.1⟩
    · have := hn _ (List.mem_append_right _ (List.mem_singleton.2 rfl)); exact ⟨this.1, this.2.1, this.2.2.1, this.2.2.2, fun h => hk h.1⟩
    · exact absurd h hk
  · unfold generate
    cases h : d.kind
    · exact absurd h hk
    · simp only; exact (class_accepted e "" "" _).2.1
    · simp only; exact (class_accepted e "" "" _).2.1

/-- An implementation like glibc's with GCC in its GNU mode: it predefines `linux` and `unix`, and declares the types globally too. -/
def gnu : Env := ⟨["linux", "unix"], ["int8_t", "uint8_t", "int16_t", "uint16_t", "int32_t", "uint32_t", "int64_t", "uint64_t"]⟩

example : ValidDsdl heartbeat ∧ accepted gnu (generate (fun _ => "UAVCAN_NODE_HEARTBEAT") heartbeat) = true := by
  refine ⟨⟨by decide, by simp [heartbeat]⟩, by decide⟩

/-- A name that is the macro of the guard is rejected too. -/
example : accepted gnu (generate (fun _ => "VENDOR_LIMITS")
    ⟨["vendor"], .structure, ⟨"Limits", [⟨"uint8_t", "VENDOR_LIMITS", 1, 1⟩], []⟩⟩) = false := by decide

/-- A namespace `uint8_t` is only a problem at the outside, if the type is not used. -/
example : accepted gnu (generate (fun _ => "G") ⟨["uint8_t", "vendor"], .union, ⟨"U", [], []⟩⟩) = false ∧
    accepted gnu (generate (fun _ => "G") ⟨["vendor", "uint8_t"], .union, ⟨"U", [], []⟩⟩) = true ∧
    accepted gnu (generate (fun _ => "G") ⟨["vendor", "uint8_t"], .structure, ⟨"U", [], [⟨.primitive "uint8_t", "x"⟩]⟩⟩) = false := by decide

end Uavcan.Templates
