import Verif.Model.Templates

/-!
# C53, C54, C65: generated code
-/

namespace Uavcan.Templates

/-! ## C53 -/

/-- The property as stated in `properties.jsonl`, for the value of the constant expression: `v = numerator / denominator`. -/
def C53_Statement : Prop :=
  ∀ (numerator : Int) (denominator : Nat), 0 < denominator → Nat.Coprime numerator.natAbs denominator →
    ∃ v, constantExpr numerator denominator = some v ∧ v * denominator = numerator

theorem signed_natAbs (n : Int) : (if n < 0 then -(n.natAbs : Int) else n.natAbs) = n := by split <;> omega

/-- The value of the emitted expression, whenever it is well-formed. -/
theorem constantExpr_eq (n : Int) (d : Nat) (hd : 0 < d) :
    constantExpr n d = if n.natAbs < 2 ^ 63 ∧ d < 2 ^ 63 then some (n.tdiv d) else none := by
  unfold constantExpr literal
  by_cases h1 : n.natAbs < 2 ^ 63
  · by_cases h2 : d < 2 ^ 63
    · have : d ≠ 0 := by omega
      simp only [h1, h2, if_true, Option.bind_eq_bind, Option.bind_some, this, if_false, signed_natAbs, and_self]
      rfl
    · simp [h1, h2]
  · simp [h1]

/-- C53, partial: the expression has the value given in the DSDL exactly if the value is an integer of less than 2^63 in absolute
value; for a value that is not an integer it has the integer part (rounded towards zero). Missing: fractions, and
integers from 2^63 on (as `uint64` may have) and below -2^63 + 1. -/
theorem C53_constant_partial (n : Int) (d : Nat) (hd : 0 < d) (hc : Nat.Coprime n.natAbs d) :
    ((∃ v, constantExpr n d = some v ∧ v * d = n) ↔ d = 1 ∧ n.natAbs < 2 ^ 63) ∧
    (∀ v, constantExpr n d = some v → v = n.tdiv d ∧ (v * d - n).natAbs < d ∧ (v * d).natAbs ≤ n.natAbs) := by
  rw [constantExpr_eq n d hd]
  constructor
  · constructor
    · rintro ⟨v, hv, he⟩
      split at hv
      · rename_i h
        have hdvd : d ∣ n.natAbs := by
          rw [← he, Int.natAbs_mul, Int.natAbs_natCast]
          exact Nat.dvd_mul_left _ _
        have h1 : d ∣ Nat.gcd n.natAbs d := Nat.dvd_gcd hdvd (Nat.dvd_refl _)
        rw [hc] at h1
        exact ⟨Nat.dvd_one.1 h1, h.1⟩
      · cases hv
    · rintro ⟨rfl, h⟩
      exact ⟨n, by simp [h], by simp⟩
  · intro v hv
    split at hv
    · injection hv with hv
      subst hv
      have h1 := Int.mul_tdiv_add_tmod n d
      have h2 : (n.tmod d).natAbs < d := by
        rw [Int.natAbs_tmod]; exact Nat.mod_lt _ (by simpa using hd)
      have h4 : (n.tdiv d * d).natAbs = n.natAbs / d * d := by
        rw [Int.natAbs_mul, Int.natAbs_tdiv]; rfl
      refine ⟨rfl, ?_, ?_⟩
      · have : n.tdiv d * d - n = -(n.tmod d) := by rw [Int.mul_comm]; omega
        rw [this, Int.natAbs_neg]; exact h2
      · rw [h4]; exact Nat.div_mul_le_self _ _
    · cases hv

/-- C53, partial: the type of an integer constant does not matter: every `uintN` and `intN` constant of up to 63 bits, and every
`uint64` or `int64` constant that is within range of the literals, gets its value. -/
theorem C53_integers_partial (n : Int) (h : -(2 ^ 63 : Int) < n) (h' : n < 2 ^ 63) : constantExpr n 1 = some n := by
  obtain ⟨v, hv, he⟩ := ((C53_constant_partial n 1 (by decide) (by simp)).1.2 ⟨rfl, by omega⟩)
  rw [hv]; simp at he; rw [he]

/-- C53 is false of the templates: `float32 HALF = 0.5` becomes 0, and `uint64 MAX = 2^64 - 1` does not compile. -/
theorem C53_full_statement_fails : ¬ C53_Statement ∧ constantExpr 1 2 = some 0 ∧ constantExpr (2 ^ 64 - 1) 1 = none := by
  refine ⟨fun h => ?_, by decide, by decide⟩
  obtain ⟨v, hv, he⟩ := h 1 2 (by decide) (by decide)
  rw [show constantExpr 1 2 = some 0 by decide] at hv
  injection hv with hv
  subst hv
  revert he; decide

example : constantExpr (-22) 7 = some (-3) := by decide

/-- The integers a type has. Of a floating point type these are the ones with at most `digits` significant digits. -/
def CType.Has : CType → Int → Prop
  | .bool, v => v = 0 ∨ v = 1
  | .unsigned bits, v => 0 ≤ v ∧ v < 2 ^ bits
  | .signed bits, v => -(2 ^ (bits - 1) : Int) ≤ v ∧ v < 2 ^ (bits - 1)
  | .float digits, v => ∃ m e, v.natAbs = m * 2 ^ e ∧ m < 2 ^ digits

/-- Types have at least one digit. -/
def CType.Ok : CType → Prop
  | .bool => True
  | .unsigned bits => 0 < bits
  | .signed bits => 0 < bits
  | .float digits => 0 < digits

theorem toFloat_exact (away : Int → Bool) {digits : Nat} {v : Int} (h : (CType.float digits).Has v) :
    toFloat away digits v = v := by
  obtain ⟨m, e, hv, hm⟩ := h
  have hd : v.natAbs % 2 ^ (v.natAbs.log2 + 1 - digits) = 0 := by
    by_cases h0 : v.natAbs = 0
    · rw [h0]; exact Nat.zero_mod _
    · have hlt : v.natAbs < 2 ^ (digits + e) := by
        rw [hv, Nat.pow_add]; exact Nat.mul_lt_mul_of_pos_right hm (Nat.two_pow_pos e)
      have : v.natAbs.log2 < digits + e := (Nat.log2_lt h0).2 hlt
      apply Nat.mod_eq_zero_of_dvd
      refine Nat.dvd_trans (Nat.pow_dvd_pow 2 (show v.natAbs.log2 + 1 - digits ≤ e by omega)) ?_
      rw [hv]; exact Nat.dvd_mul_left _ _
  simp only [toFloat, hd, if_true]
  split <;> omega

theorem toFloat_has (away : Int → Bool) {digits : Nat} (hk : 0 < digits) (v : Int) :
    (CType.float digits).Has (toFloat away digits v) := by
  simp only [CType.Has, toFloat]
  generalize he : v.natAbs.log2 + 1 - digits = e
  have hq : v.natAbs / 2 ^ e < 2 ^ digits := by
    rw [Nat.div_lt_iff_lt_mul (Nat.two_pow_pos e), ← Nat.pow_add]
    by_cases h0 : v.natAbs = 0
    · rw [h0]; exact Nat.two_pow_pos _
    · exact (Nat.log2_lt h0).1 (by omega)
  have key : ∀ a : Nat, (∃ m e', a = m * 2 ^ e' ∧ m < 2 ^ digits) →
      ∃ m e', (if v < 0 then -(a : Int) else a).natAbs = m * 2 ^ e' ∧ m < 2 ^ digits := by
    rintro a ⟨m, e', h, h'⟩
    refine ⟨m, e', ?_, h'⟩
    rw [← h]; split <;> omega
  apply key
  split
  · rename_i h0
    exact ⟨v.natAbs / 2 ^ e, e, (Nat.div_mul_cancel (Nat.dvd_of_mod_eq_zero h0)).symm, hq⟩
  · split
    · by_cases h1 : v.natAbs / 2 ^ e + 1 < 2 ^ digits
      · exact ⟨_, e, rfl, h1⟩
      · refine ⟨2 ^ (digits - 1), e + 1, ?_, Nat.pow_lt_pow_right (by decide) (by omega)⟩
        have : v.natAbs / 2 ^ e + 1 = 2 ^ digits := by omega
        rw [this, Nat.pow_succ, ← Nat.mul_assoc, Nat.mul_right_comm, ← Nat.pow_succ, show (digits - 1).succ = digits by omega]
    · exact ⟨_, e, rfl, hq⟩

/-- Conversion keeps exactly the values the type has. -/
theorem convert_eq_iff (away : Int → Bool) {t : CType} (ht : t.Ok) (v : Int) : convert away t v = v ↔ t.Has v := by
  cases t with
  | bool =>
    simp only [convert, CType.Has]
    split <;> omega
  | unsigned bits =>
    simp only [convert, CType.Has]
    have hp : (0 : Int) < 2 ^ bits := Int.pow_pos (by decide)
    constructor
    · intro h; rw [← h]; exact ⟨Int.emod_nonneg _ (by omega), Int.emod_lt_of_pos _ hp⟩
    · intro h; exact Int.emod_eq_of_lt h.1 h.2
  | signed bits =>
    obtain ⟨k, rfl⟩ : ∃ k, bits = k + 1 := ⟨bits - 1, by simp only [CType.Ok] at ht; omega⟩
    simp only [convert, CType.Has, Nat.add_sub_cancel]
    have h2 : ((2 ^ (k + 1) : Nat) : Int) = 2 * 2 ^ k := by rw [Nat.pow_succ]; push_cast; omega
    have hp : (0 : Nat) < 2 ^ (k + 1) := Nat.two_pow_pos _
    have h3 : (0 : Int) < 2 ^ k := Int.pow_pos (by decide)
    constructor
    · intro h
      have a := Int.le_bmod (x := v) hp
      have b := Int.bmod_lt (x := v) hp
      rw [h] at a b
      rw [h2] at a b
      generalize (2 : Int) ^ k = q at *
      omega
    · intro h
      have h4 : ((2 : Int) ^ k) = ((2 ^ k : Nat) : Int) := by push_cast; rfl
      apply Int.bmod_eq_of_le <;> (rw [h2]; generalize (2 : Int) ^ k = q at *; omega)
  | float digits =>
    constructor
    · intro h; rw [← h]; exact toFloat_has away ht v
    · exact toFloat_exact away

/-- C53, partial: with the conversion to the type of the constant: the constant has the value given in the DSDL exactly if that is
an integer of less than 2^63 in absolute value which the type has - whichever way the compiler rounds. -/
theorem C53_typed_partial (away : Int → Bool) (t : CType) (ht : t.Ok) (n : Int) (d : Nat) (hd : 0 < d)
    (hc : Nat.Coprime n.natAbs d) :
    (∃ v, constantExpr n d = some v ∧ convert away t v * d = n) ↔ d = 1 ∧ n.natAbs < 2 ^ 63 ∧ t.Has n := by
  constructor
  · rintro ⟨v, hv, he⟩
    have hdvd : d ∣ n.natAbs := by
      rw [← he, Int.natAbs_mul, Int.natAbs_natCast]
      exact Nat.dvd_mul_left _ _
    have h1 : d ∣ Nat.gcd n.natAbs d := Nat.dvd_gcd hdvd (Nat.dvd_refl _)
    rw [hc] at h1
    obtain rfl := Nat.dvd_one.1 h1
    rw [constantExpr_eq n 1 hd] at hv
    split at hv
    · rename_i h
      rw [Int.natCast_one, Int.tdiv_one] at hv
      injection hv with hv
      subst hv
      rw [Int.natCast_one, Int.mul_one] at he
      exact ⟨rfl, h.1, (convert_eq_iff away ht n).1 he⟩
    · cases hv
  · rintro ⟨rfl, h, ht'⟩
    refine ⟨n, C53_integers_partial n (by omega) (by omega), ?_⟩
    rw [Int.natCast_one, Int.mul_one]
    exact (convert_eq_iff away ht n).2 ht'

/-- 2^24 + 1 is not a `float`: it becomes 2^24 or 2^24 + 2. -/
example : convert (fun _ => false) (.float 24) 16777217 = 16777216 ∧ convert (fun _ => true) (.float 24) (-16777217) = -16777218 ∧
    convert (fun _ => true) (.float 24) 16777216 = 16777216 := by decide +kernel

/-- `int8 A = -128` and `uint8 B = 255`. -/
example : convert (fun _ => false) (.signed 8) (-128) = -128 ∧ convert (fun _ => false) (.unsigned 8) 255 = 255 := by decide

/-- The constants declared: type, name and the two numbers of the expression. -/
def constantsOf (ds : List Decl) : List (String × String × Int × Nat) :=
  ds.filterMap fun | .constant c n x y => some (c, n, x, y) | _ => none

/-- C53, partial: a structure declares each of its constants, in order, with its type, its name and the expression the theorems
above are about. The classes for unions and services declare none. -/
theorem C53_declared_partial (t : Structure) :
    constantsOf (emitStructure t) = t.constants.map (fun c => (c.ctype, c.name, c.numerator, c.denominator)) ∧
    constantsOf (emitClass t) = [] := by
  have h1 : ∀ cs : List Constant,
      (cs.map fun c => Decl.constant c.ctype c.name c.numerator c.denominator).filterMap
        (fun | .constant c n x y => some (c, n, x, y) | _ => none) =
      cs.map (fun c => (c.ctype, c.name, c.numerator, c.denominator)) := by
    intro cs; induction cs with
    | nil => rfl
    | cons c cs ih => rw [List.map_cons, List.filterMap_cons, ih]; rfl
  have h2 : ∀ fs : List Field, (fs.flatMap emitField).filterMap
      (fun | .constant c n x y => some (c, n, x, y) | _ => none) = ([] : List (String × String × Int × Nat)) := by
    intro fs; induction fs with
    | nil => rfl
    | cons f fs ih =>
      simp only [List.flatMap_cons, List.filterMap_append, ih]
      cases hf : f.type <;> simp [emitField, hf]
  have h3 : ∀ n, (List.replicate n Decl.comment).filterMap
      (fun | .constant c n x y => some (c, n, x, y) | _ => none) = ([] : List (String × String × Int × Nat)) := by
    intro n; induction n with
    | zero => rfl
    | succ n ih => rw [List.replicate_succ]; simp
  constructor
  · simp only [constantsOf, emitStructure, List.filterMap_append, h1, h2, List.append_nil]
  · simp only [constantsOf, emitClass, List.filterMap_append, h3, List.append_nil]

/-- `uavcan.node.Heartbeat.1.0` has a constant `uint16 MAX_PUBLICATION_PERIOD = 1`. -/
example : constantsOf (emitStructure ⟨"Heartbeat", [⟨"uint16_t", "MAX_PUBLICATION_PERIOD", 1, 1⟩],
    [⟨.primitive "uint32_t", "uptime"⟩]⟩) = [("uint16_t", "MAX_PUBLICATION_PERIOD", 1, 1)] := by decide

/-! ## C54 -/

/-- The names of the data members declared. -/
def membersOf (ds : List Decl) : List String := ds.filterMap fun | .member _ n => some n | _ => none

/-- A field that needs a member: anything but padding. -/
def Field.needsMember (f : Field) : Bool := match f.type with | .void _ => false | _ => true

/-- A field of a primitive type. -/
def Field.isPrimitive (f : Field) : Bool := match f.type with | .primitive _ => true | _ => false

/-- The property as stated in `properties.jsonl`: one member per field (padding aside), in order - for messages, unions and
services. -/
def C54_Statement : Prop :=
  ∀ t : Structure, membersOf (emitStructure t) = (t.fields.filter Field.needsMember).map Field.name ∧
    membersOf (emitClass t) = (t.fields.filter Field.needsMember).map Field.name

theorem members_structure (t : Structure) : membersOf (emitStructure t) = (t.fields.filter Field.isPrimitive).map Field.name := by
  have h1 : ∀ cs : List Constant,
      (cs.map fun c => Decl.constant c.ctype c.name c.numerator c.denominator).filterMap
        (fun | .member _ n => some n | _ => none) = ([] : List String) := by
    intro cs; induction cs with
    | nil => rfl
    | cons c cs ih => simp
  have h2 : ∀ fs : List Field, (fs.flatMap emitField).filterMap (fun | .member _ n => some n | _ => none) =
      (fs.filter Field.isPrimitive).map Field.name := by
    intro fs; induction fs with
    | nil => rfl
    | cons f fs ih =>
      simp only [List.flatMap_cons, List.filterMap_append, ih]
      cases hf : f.type <;> simp [emitField, hf, Field.isPrimitive]
  simp only [membersOf, emitStructure, List.filterMap_append, h1, h2, List.nil_append]

/-- C54, partial: a structure gets its fields of primitive types as members, in order, which are all its fields exactly if it has
no others (padding aside); the classes for unions and services have no members at all. Missing: arrays, composite types,
unions, services. -/
theorem C54_members_partial (t : Structure) :
    membersOf (emitStructure t) = (t.fields.filter Field.isPrimitive).map Field.name ∧
    ((membersOf (emitStructure t)).length = (t.fields.filter Field.needsMember).length ↔
      ∀ f ∈ t.fields, f.needsMember = true → f.isPrimitive = true) ∧
    ((∀ f ∈ t.fields, f.needsMember = true → f.isPrimitive = true) →
      membersOf (emitStructure t) = (t.fields.filter Field.needsMember).map Field.name) ∧
    membersOf (emitClass t) = [] := by
  have himp : ∀ f : Field, f.isPrimitive = true → f.needsMember = true := by
    intro f; cases hf : f.type <;> simp [Field.isPrimitive, Field.needsMember, hf]
  have hall : (∀ f ∈ t.fields, f.needsMember = true → f.isPrimitive = true) →
      t.fields.filter Field.isPrimitive = t.fields.filter Field.needsMember := by
    intro h
    apply List.filter_congr
    intro f hf
    cases hn : f.needsMember with
    | true => exact h f hf hn
    | false =>
      cases hp : f.isPrimitive with
      | false => rfl
      | true => rw [himp f hp] at hn; cases hn
  refine ⟨members_structure t, ?_, fun h => by rw [members_structure, hall h], ?_⟩
  · rw [members_structure, List.length_map]
    constructor
    · intro h f hf hn
      have hsub : (t.fields.filter Field.isPrimitive).Sublist (t.fields.filter Field.needsMember) := by
        have : t.fields.filter Field.isPrimitive = (t.fields.filter Field.needsMember).filter Field.isPrimitive := by
          rw [List.filter_filter]
          apply List.filter_congr
          intro x _
          cases hp : x.isPrimitive with
          | false => rfl
          | true => rw [himp x hp]; rfl
        rw [this]; exact List.filter_sublist
      have heq := hsub.eq_of_length h
      have : f ∈ t.fields.filter Field.isPrimitive := by rw [heq]; exact List.mem_filter.2 ⟨hf, hn⟩
      exact (List.mem_filter.1 this).2
    · intro h; rw [hall h]
  · have : ∀ n, (List.replicate n Decl.comment).filterMap (fun | .member _ n => some n | _ => none) = ([] : List String) := by
      intro n; induction n with
      | zero => rfl
      | succ n ih => rw [List.replicate_succ]; simp
    simp only [membersOf, emitClass, List.filterMap_append, this, List.append_nil]

/-- The data members declared: type and name. -/
def typedMembersOf (ds : List Decl) : List (String × String) := ds.filterMap fun | .member c n => some (c, n) | _ => none

/-- C54, partial: the members have the types of their fields. -/
theorem C54_types_partial (t : Structure) :
    typedMembersOf (emitStructure t) =
      t.fields.filterMap (fun f => match f.type with | .primitive c => some (c, f.name) | _ => none) := by
  have h1 : ∀ cs : List Constant,
      (cs.map fun c => Decl.constant c.ctype c.name c.numerator c.denominator).filterMap
        (fun | .member c n => some (c, n) | _ => none) = ([] : List (String × String)) := by
    intro cs; induction cs with
    | nil => rfl
    | cons c cs ih => simp
  have h2 : ∀ fs : List Field, (fs.flatMap emitField).filterMap (fun | .member c n => some (c, n) | _ => none) =
      fs.filterMap (fun f => match f.type with | .primitive c => some (c, f.name) | _ => none) := by
    intro fs; induction fs with
    | nil => rfl
    | cons f fs ih =>
      simp only [List.flatMap_cons, List.filterMap_append, ih, List.filterMap_cons]
      cases hf : f.type <;> simp [emitField, hf]
  simp only [typedMembersOf, emitStructure, List.filterMap_append, h1, h2, List.nil_append]

/-- C54 is false of the templates: an array field is left out, without a word. -/
theorem C54_full_statement_fails : ¬ C54_Statement := by
  intro h
  have := (h ⟨"Name", [], [⟨.array (.primitive "uint8_t"), "name"⟩, ⟨.primitive "uint8_t", "kind"⟩]⟩).1
  revert this; decide

/-- `uavcan.node.Version.1.0`: two fields, both primitive. -/
example : membersOf (emitStructure ⟨"Version", [], [⟨.primitive "uint8_t", "major"⟩, ⟨.void 2, ""⟩, ⟨.primitive "uint8_t", "minor"⟩]⟩) =
    ["major", "minor"] := by decide

example : typedMembersOf (emitStructure ⟨"Heartbeat", [⟨"uint16_t", "MAX_PUBLICATION_PERIOD", 1, 1⟩],
    [⟨.primitive "uint32_t", "uptime"⟩, ⟨.primitive "uint8_t", "health"⟩]⟩) = [("uint32_t", "uptime"), ("uint8_t", "health")] := by
  decide

/-! ## C65 -/

/-- The property as stated in `properties.jsonl`: whatever headers a source file includes, and however often, each of the types is
declared, once. -/
def C65_Statement : Prop :=
  ∀ (macrofy : String → String), (∀ a b, macrofy a = macrofy b → a = b) → ∀ hs : List Header,
    (includeAll macrofy hs).declared.Nodup ∧ ∀ h, h ∈ (includeAll macrofy hs).declared ↔ h ∈ hs

theorem include_inv (macrofy : String → String) (hm : ∀ a b, macrofy a = macrofy b → a = b) (hs : List Header) : ∀ u : Unit,
    (∀ n, macrofy n ∈ u.macros ↔ n ∈ u.declared.map Header.full_name) → (u.declared.map Header.full_name).Nodup →
    let u' := hs.foldl («include» macrofy) u
    (u'.declared.map Header.full_name).Nodup ∧
    (∀ n, n ∈ u'.declared.map Header.full_name ↔ n ∈ u.declared.map Header.full_name ∨ n ∈ hs.map Header.full_name) ∧
    (∀ h, h ∈ u'.declared → h ∈ u.declared ∨ h ∈ hs) := by
  induction hs with
  | nil => intro u h1 h2; exact ⟨h2, fun n => by simp, fun h hh => .inl hh⟩
  | cons h hs ih =>
    intro u h1 h2
    simp only [List.foldl_cons]
    by_cases hin : macrofy h.full_name ∈ u.macros
    · have hu : «include» macrofy u h = u := by unfold «include»; rw [if_pos hin]
      rw [hu]
      obtain ⟨k1, k2, k3⟩ := ih u h1 h2
      refine ⟨k1, fun n => ?_, fun x hx => ?_⟩
      · rw [k2 n, List.map_cons, List.mem_cons]
        constructor
        · rintro (hn | hn)
          · exact .inl hn
          · exact .inr (.inr hn)
        · rintro (hn | rfl | hn)
          · exact .inl hn
          · exact .inl ((h1 _).1 hin)
          · exact .inr hn
      · rcases k3 x hx with hx | hx
        · exact .inl hx
        · exact .inr (List.mem_cons_of_mem _ hx)
    · have hu : «include» macrofy u h = ⟨macrofy h.full_name :: u.macros, u.declared ++ [h]⟩ := by
        unfold «include»; rw [if_neg hin]
      rw [hu]
      have hnew : h.full_name ∉ u.declared.map Header.full_name := fun hc => hin ((h1 _).2 hc)
      obtain ⟨k1, k2, k3⟩ := ih ⟨macrofy h.full_name :: u.macros, u.declared ++ [h]⟩
        (by
          intro n
          simp only [List.mem_cons, List.map_append, List.mem_append, List.map_cons, List.map_nil, List.not_mem_nil, or_false, h1]
          constructor
          · rintro (hc | hc)
            · exact .inr (hm _ _ hc)
            · exact .inl hc
          · rintro (hc | hc)
            · exact .inr hc
            · exact .inl (by rw [hc]))
        (by
          simp only [List.map_append, List.map_cons, List.map_nil, List.nodup_append, List.nodup_cons, List.not_mem_nil,
            not_false_eq_true, List.nodup_nil, and_true]
          refine ⟨h2, trivial, fun a ha b hb => ?_⟩
          simp only [List.mem_cons, List.not_mem_nil, or_false] at hb
          subst hb
          intro he
          subst he
          exact hnew ha)
      refine ⟨k1, fun n => ?_, fun x hx => ?_⟩
      · rw [k2 n]
        simp only [List.map_append, List.map_cons, List.map_nil, List.mem_append, List.mem_cons, List.not_mem_nil, or_false]
        constructor
        · rintro ((hn | hn) | hn)
          · exact .inl hn
          · exact .inr (.inl hn)
          · exact .inr (.inr hn)
        · rintro (hn | hn | hn)
          · exact .inl (.inl hn)
          · exact .inl (.inr hn)
          · exact .inr hn
      · rcases k3 x hx with hx | hx
        · simp only [List.mem_append, List.mem_cons, List.not_mem_nil, or_false] at hx
          rcases hx with hx | rfl
          · exact .inl hx
          · exact .inr (List.mem_cons_self ..)
        · exact .inr (List.mem_cons_of_mem _ hx)

/-- C65, partial: every name included is declared exactly once - in one of the versions included; if there is one version of each
included, each type is declared exactly once. Missing: two versions of a type in one source file, the second is left out. -/
theorem C65_guards_partial (macrofy : String → String) (hm : ∀ a b, macrofy a = macrofy b → a = b) (hs : List Header) :
    ((includeAll macrofy hs).declared.map Header.full_name).Nodup ∧
    (∀ n, n ∈ (includeAll macrofy hs).declared.map Header.full_name ↔ n ∈ hs.map Header.full_name) ∧
    ((∀ a ∈ hs, ∀ b ∈ hs, a.full_name = b.full_name → a = b) →
      (includeAll macrofy hs).declared.Nodup ∧ ∀ h, h ∈ (includeAll macrofy hs).declared ↔ h ∈ hs) := by
  obtain ⟨k1, k2, k3⟩ := include_inv macrofy hm hs ⟨[], []⟩ (fun n => by simp) List.nodup_nil
  have k2' : ∀ n, n ∈ (includeAll macrofy hs).declared.map Header.full_name ↔ n ∈ hs.map Header.full_name := by
    intro n; rw [show (includeAll macrofy hs).declared = (hs.foldl («include» macrofy) ⟨[], []⟩).declared from rfl, k2 n]; simp
  have k3' : ∀ h, h ∈ (includeAll macrofy hs).declared → h ∈ hs := by
    intro h hh
    rcases k3 h hh with hh | hh
    · cases hh
    · exact hh
  refine ⟨k1, k2', fun hu => ⟨?_, fun h => ⟨k3' h, fun hh => ?_⟩⟩⟩
  · exact List.Pairwise.of_map Header.full_name (fun a b hab he => hab (by rw [he])) k1
  · have := (k2' h.full_name).2 (List.mem_map.2 ⟨h, hh, rfl⟩)
    obtain ⟨g, hg, he⟩ := List.mem_map.1 this
    rw [← hu g (k3' g hg) h hh he]
    exact hg

/-- C65 is false of the templates: of two versions of a type only the one included first is declared - whatever `macrofy` does. -/
theorem C65_full_statement_fails : ¬ C65_Statement := by
  intro h
  have := ((h id (fun _ _ h => h) [⟨"uavcan.node.Heartbeat", 1, 0⟩, ⟨"uavcan.node.Heartbeat", 2, 0⟩]).2
    ⟨"uavcan.node.Heartbeat", 2, 0⟩).2 (by decide)
  revert this; decide

example : (includeAll id [⟨"uavcan.node.Heartbeat", 1, 0⟩, ⟨"uavcan.node.ID", 1, 0⟩, ⟨"uavcan.node.Heartbeat", 1, 0⟩]).declared =
    [⟨"uavcan.node.Heartbeat", 1, 0⟩, ⟨"uavcan.node.ID", 1, 0⟩] := by decide

end Uavcan.Templates
