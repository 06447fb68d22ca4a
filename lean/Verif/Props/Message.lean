import Verif.Lemmas.Message

/-!
# C119: messages packed field by field
-/

namespace Uavcan.CopyBits
open Spec

/-- Messages with fields of these widths are packed right, whatever the fields and the buffer contain, as long as there is room. -/
def Packs (st : Style) (ws : List Nat) : Prop :=
  ∀ (fields : List (Nat × List Byte)) (buf : List Byte), fields.map (·.1) = ws → Hold fields → ws.sum ≤ 8 * buf.length →
    buf.length < 2 ^ 61 → ∃ buf', pack st fields 0 buf = .ok buf' ∧ buf'.length = buf.length ∧ Placed fields 0 buf'

/-- They are unpacked right, whatever the buffer and the variables contain. -/
def Unpacks (st : Style) (ws : List Nat) : Prop :=
  ∀ (outs : List (Nat × List Byte)) (buf : List Byte), outs.map (·.1) = ws → Hold outs → ws.sum ≤ 8 * buf.length →
    ∃ r, unpack st buf outs 0 = .ok r ∧ r.map (·.1) = ws ∧ Placed r 0 buf

/-- What is packed comes back. -/
def ComesBack (st : Style) (ws : List Nat) : Prop :=
  ∀ (fields outs : List (Nat × List Byte)) (buf : List Byte), fields.map (·.1) = ws → outs.map (·.1) = ws → Hold fields → Hold outs →
    ws.sum ≤ 8 * buf.length → buf.length < 2 ^ 61 →
    ∃ buf' r, pack st fields 0 buf = .ok buf' ∧ unpack st buf' outs 0 = .ok r ∧ SameFields fields r

/-- The variables have changed in the bits of the fields only. -/
def Kept (outs r : List (Nat × List Byte)) : Prop :=
  ∀ (i w : Nat) (f g : List Byte), outs[i]? = some (w, f) → r[i]? = some (w, g) → g.length = f.length ∧ ∀ k, w ≤ k → bit g k = bit f k

/-- Unpacking with a pointer to the byte changes nothing else. -/
def UnpacksCleanly (ws : List Nat) : Prop :=
  ∀ (outs : List (Nat × List Byte)) (buf : List Byte), outs.map (·.1) = ws → Hold outs → ws.sum ≤ 8 * buf.length →
    ∃ r, unpack .advancing buf outs 0 = .ok r ∧ r.map (·.1) = ws ∧ Placed r 0 buf ∧ Kept outs r

/-- The property as stated in `properties.jsonl`. -/
def C119_Statement : Prop := ∀ st ws, Packs st ws ∧ Unpacks st ws ∧ ComesBack st ws

/-- The layouts that work: no field but those that start at offset 0 goes beyond the first byte. With offsets from the start of the buffer
these are the messages of one field and those of one byte; with a pointer to the byte, those in which a field that does not start at a byte
boundary ends within the byte. -/
def Layout (st : Style) (ws : List Nat) : Prop :=
  ∀ pre w post, ws = pre ++ w :: post → w = 0 ∨
    match st with
    | .absolute => pre.sum = 0 ∨ pre.sum + w ≤ 8
    | .advancing => pre.sum % 8 = 0 ∨ pre.sum % 8 + w ≤ 8

/-! ## Lemmas -/

theorem layout_allFine {st : Style} {ws : List Nat} (h : Layout st ws) {fields : List (Nat × List Byte)}
    (hf : fields.map (·.1) = ws) : AllFine st fields 0 := by
  intro pre x post e
  have := h (pre.map (·.1)) x.1 (post.map (·.1)) (by rw [← hf, e]; simp)
  rw [Nat.zero_add]
  rcases this with h0 | h1
  · exact .inl h0
  · right
    cases st <;> exact h1

theorem not_layout {st : Style} {ws : List Nat} (h : ¬ Layout st ws) :
    ∃ pre w post, ws = pre ++ w :: post ∧ ¬ Fine (st.offset pre.sum) w := by
  apply Classical.byContradiction
  intro hn
  apply h
  intro pre w post e
  apply Classical.byContradiction
  intro h2
  apply hn
  refine ⟨pre, w, post, e, fun hf => h2 ?_⟩
  rcases hf with h0 | h1
  · exact .inl h0
  · right
    cases st <;> exact h1

theorem zeros_width (ws : List Nat) : width (zeros ws) = ws.sum := by
  simp only [width, zeros, List.map_map]
  congr 1
  conv => rhs; rw [← List.map_id ws]
  rfl

theorem zeros_map (ws : List Nat) : (zeros ws).map (·.1) = ws := by
  simp only [zeros, List.map_map]
  conv => rhs; rw [← List.map_id ws]
  rfl

theorem mem_le_sum {ws : List Nat} {w : Nat} (h : w ∈ ws) : w ≤ ws.sum := by
  induction ws with
  | nil => cases h
  | cons a l ih =>
    rw [List.sum_cons]
    rcases List.mem_cons.1 h with rfl | h
    · omega
    · have := ih h; omega

theorem zeros_hold {ws : List Nat} (h : ws.sum < 2 ^ 60) : Hold (zeros ws) := by
  intro x hx
  simp only [zeros, List.mem_map] at hx
  obtain ⟨w, hw, rfl⟩ := hx
  have := mem_le_sum hw
  simp only [List.length_replicate]
  omega

/-- A message with one marked field, the others zero. -/
def markedAt (pre : List Nat) (w : Nat) (post : List Nat) : List (Nat × List Byte) := zeros pre ++ (w, marked w) :: zeros post

theorem markedAt_map (pre : List Nat) (w : Nat) (post : List Nat) : (markedAt pre w post).map (·.1) = pre ++ w :: post := by
  rw [markedAt, List.map_append, List.map_cons, zeros_map, zeros_map]

theorem markedAt_hold {pre : List Nat} {w : Nat} {post : List Nat} (h : (pre ++ w :: post).sum < 2 ^ 60) :
    Hold (markedAt pre w post) := by
  rw [List.sum_append, List.sum_cons] at h
  intro x hx
  rw [markedAt, List.mem_append, List.mem_cons] at hx
  rcases hx with hx | rfl | hx
  · exact zeros_hold (by omega) x hx
  · simp only [marked, List.length_cons, List.length_replicate]; omega
  · exact zeros_hold (by omega) x hx

/-! ## C119 -/

/-- C119, partial: messages are packed right exactly in these layouts. Missing: all the other layouts. -/
theorem C119_packs_iff_partial (st : Style) (ws : List Nat) (hbig : ws.sum < 2 ^ 60) : Packs st ws ↔ Layout st ws := by
  constructor
  · intro h
    apply Classical.byContradiction
    intro hn
    obtain ⟨pre, w, post, rfl, hf⟩ := not_layout hn
    obtain ⟨buf', h1, h2, h3⟩ := h (markedAt pre w post) (List.replicate ((pre ++ w :: post).sum) 0) (markedAt_map ..) (markedAt_hold hbig)
      (by simp only [List.length_replicate]; omega) (by simp only [List.length_replicate]; omega)
    have hb := h3 (zeros pre) w (marked w) (zeros post) rfl (lostBit st pre.sum) (lostBit_lt hf).1
    rw [marked_bit _ (lostBit_lt hf).2, zeros_width, Nat.zero_add] at hb
    rw [markedAt, pack_append, Outcome.bind_eq_ok] at h1
    obtain ⟨b1, p1, p2⟩ := h1
    obtain ⟨l1, z1⟩ := pack_zeros (by simp only [List.length_replicate]; omega) p1
    rw [pack, Outcome.bind_eq_ok] at p2
    obtain ⟨b2, p2, p3⟩ := p2
    rw [zeros_width, Nat.zero_add] at p2
    rw [List.length_replicate] at l1
    have l2 := put_length (by omega) p2
    obtain ⟨l3, z3⟩ := pack_zeros (by omega) p3
    rw [z3 _ (put_lost hf (by omega) p2 (z1 _ (bit_replicate_zero _ _)))] at hb
    cases hb
  · intro h fields buf hf hh hl hs
    obtain ⟨buf', a1, a2, -, a3⟩ := pack_fine (layout_allFine h hf) hh (buf := buf) (by rw [width, hf]; omega) hs
    exact ⟨buf', a1, a2, a3⟩

/-- The field after `pre`, unpacked into zeros. -/
theorem unpack_split {st : Style} {pre : List Nat} {w : Nat} {post : List Nat} {buf : List Byte} {r : List (Nat × List Byte)}
    (h : unpack st buf (zeros (pre ++ w :: post)) 0 = .ok r) :
    ∃ r1 o r2, r = r1 ++ (w, o) :: r2 ∧ r1.map (·.1) = pre ∧ fetch st w buf pre.sum (List.replicate (w + 1) 0) = .ok o := by
  have hmap : ∀ (outs r : List (Nat × List Byte)) (p : Nat), unpack st buf outs p = .ok r → r.map (·.1) = outs.map (·.1) := by
    intro outs
    induction outs with
    | nil => intro r p h; cases h; rfl
    | cons x l ih =>
      intro r p h
      obtain ⟨v, f⟩ := x
      simp only [unpack, Outcome.bind_eq_ok] at h
      obtain ⟨o, h1, os, h2, h3⟩ := h
      cases h3
      simp [ih _ _ h2]
  rw [show zeros (pre ++ w :: post) = zeros pre ++ (w, List.replicate (w + 1) 0) :: zeros post by simp [zeros],
    unpack_append, Outcome.bind_eq_ok] at h
  obtain ⟨r1, h1, h⟩ := h
  rw [Outcome.bind_eq_ok] at h
  obtain ⟨s, h2, h3⟩ := h
  cases h3
  simp only [unpack, Outcome.bind_eq_ok] at h2
  obtain ⟨o, g1, os, g2, g3⟩ := h2
  cases g3
  rw [zeros_width, Nat.zero_add] at g1
  exact ⟨r1, o, os, rfl, by rw [hmap _ _ _ h1, zeros_map], g1⟩

/-- What is unpacked of a field that is not fine does not depend on the message. -/
theorem unpack_lost {st : Style} {pre : List Nat} {w : Nat} {post : List Nat} (hbig : (pre ++ w :: post).sum < 2 ^ 60)
    (hf : ¬ Fine (st.offset pre.sum) w) {buf : List Byte} {r : List (Nat × List Byte)}
    (h : unpack st buf (zeros (pre ++ w :: post)) 0 = .ok r) :
    ∃ r1 o r2, r = r1 ++ (w, o) :: r2 ∧ r1.map (·.1) = pre ∧ bit o (lostBit st pre.sum) = false := by
  obtain ⟨r1, o, r2, e1, e2, e3⟩ := unpack_split h
  rw [List.sum_append, List.sum_cons] at hbig
  exact ⟨r1, o, r2, e1, e2, fetch_lost hf (by omega) e3⟩

/-- C119, partial: they are unpacked right exactly in these layouts. -/
theorem C119_unpacks_iff_partial (st : Style) (ws : List Nat) (hbig : ws.sum < 2 ^ 60) : Unpacks st ws ↔ Layout st ws := by
  constructor
  · intro h
    apply Classical.byContradiction
    intro hn
    obtain ⟨pre, w, post, rfl, hf⟩ := not_layout hn
    obtain ⟨r, h1, h2, h3⟩ := h (zeros (pre ++ w :: post)) (List.replicate ((pre ++ w :: post).sum) 0xFF) (zeros_map _) (zeros_hold hbig)
      (by simp only [List.length_replicate]; omega)
    obtain ⟨r1, o, r2, e1, e2, e3⟩ := unpack_lost hbig hf h1
    have hb := h3 r1 w o r2 e1 (lostBit st pre.sum) (lostBit_lt hf).1
    have hl := (lostBit_lt hf).1
    rw [e3, Nat.zero_add, width, e2, bit_replicate_ff (by rw [List.sum_append, List.sum_cons]; omega)] at hb
    cases hb
  · intro h outs buf hf hh hl
    obtain ⟨r, a1, a2, a3⟩ := unpack_fine (layout_allFine h hf) hh (buf := buf) (by rw [width, hf]; omega)
    exact ⟨r, a1, by rw [a2, hf], a3⟩

theorem getElem_split {l : List (Nat × List Byte)} {i : Nat} {x : Nat × List Byte} (h : l[i]? = some x) :
    ∃ post, l = l.take i ++ x :: post := by
  obtain ⟨hi, rfl⟩ := List.getElem?_eq_some_iff.1 h
  refine ⟨l.drop (i + 1), ?_⟩
  rw [List.getElem_cons_drop, List.take_append_drop]

/-- C119, partial: what is packed comes back exactly in these layouts: the faults of the two functions never cancel out. -/
theorem C119_round_trip_iff_partial (st : Style) (ws : List Nat) (hbig : ws.sum < 2 ^ 60) : ComesBack st ws ↔ Layout st ws := by
  constructor
  · intro h
    apply Classical.byContradiction
    intro hn
    obtain ⟨pre, w, post, rfl, hf⟩ := not_layout hn
    obtain ⟨buf', r, h1, h2, h3, h4⟩ := h (markedAt pre w post) (zeros (pre ++ w :: post)) (List.replicate ((pre ++ w :: post).sum) 0)
      (markedAt_map ..) (zeros_map _) (markedAt_hold hbig) (zeros_hold hbig)
      (by simp only [List.length_replicate]; omega) (by simp only [List.length_replicate]; omega)
    obtain ⟨r1, o, r2, e1, e2, e3⟩ := unpack_lost hbig hf h2
    have hl : r1.length = pre.length := by rw [← e2, List.length_map]
    have hb := h4 pre.length w (marked w) o (by simp [markedAt, zeros]) (by rw [e1, ← hl]; simp) (lostBit st pre.sum) (lostBit_lt hf).1
    rw [e3, marked_bit _ (lostBit_lt hf).2] at hb
    cases hb
  · intro h fields outs buf hf ho hh hho hl hs
    obtain ⟨buf', a1, a2, -, a3⟩ := pack_fine (layout_allFine h hf) hh (buf := buf) (by rw [width, hf]; omega) hs
    obtain ⟨r, b1, b2, b3⟩ := unpack_fine (layout_allFine h ho) hho (buf := buf') (by rw [width, ho]; omega)
    refine ⟨buf', r, a1, b1, by rw [hf, b2, ho], ?_⟩
    intro i w f g hi hj k hk
    obtain ⟨po1, s1⟩ := getElem_split hi
    obtain ⟨po2, s2⟩ := getElem_split hj
    have c1 := a3 _ _ _ _ s1 k hk
    have c2 := b3 _ _ _ _ s2 k hk
    have : width (fields.take i) = width (r.take i) := by
      rw [width, width, List.map_take, List.map_take, hf, b2, ho]
    rw [← c1, ← c2, this]

/-- C119 is false of the code. -/
theorem C119_full_statement_fails : ¬ C119_Statement := fun h => by
  have := (C119_packs_iff_partial .advancing [4, 8] (by decide)).1 (h .advancing [4, 8]).1
  have := this [4] 8 [] rfl
  simp at this

/-- The layouts with a pointer to the byte, as a check by computation. -/
def layoutCheck : Nat → List Nat → Bool
  | _, [] => true
  | p, w :: ws => (w == 0 || p % 8 == 0 || decide (p % 8 + w ≤ 8)) && layoutCheck (p + w) ws

theorem layoutCheck_iff (ws : List Nat) : ∀ p, layoutCheck p ws = true ↔
    ∀ pre w post, ws = pre ++ w :: post → w = 0 ∨ (p + pre.sum) % 8 = 0 ∨ (p + pre.sum) % 8 + w ≤ 8 := by
  induction ws with
  | nil => intro p; simp [layoutCheck]
  | cons v ws ih =>
    intro p
    simp only [layoutCheck, Bool.and_eq_true, Bool.or_eq_true, beq_iff_eq, decide_eq_true_eq, ih]
    constructor
    · rintro ⟨h1, h2⟩ pre w post e
      cases pre with
      | nil => cases e; simp only [List.sum_nil, Nat.add_zero]; omega
      | cons u pre =>
        rw [List.cons_append] at e
        injection e with e1 e2
        subst e1
        have := h2 pre w post e2
        rw [List.sum_cons, ← Nat.add_assoc]; exact this
    · intro h
      refine ⟨?_, fun pre w post e => ?_⟩
      · have := h [] v ws rfl
        simp only [List.sum_nil, Nat.add_zero] at this; omega
      · have := h (v :: pre) w post (by rw [e]; rfl)
        rw [List.sum_cons, ← Nat.add_assoc] at this; exact this

/-- C119, partial: which layouts work can be computed. -/
theorem C119_layout_decidable_partial (ws : List Nat) : Layout .advancing ws ↔ layoutCheck 0 ws = true := by
  rw [layoutCheck_iff]
  simp only [Nat.zero_add, Layout]

/-- A byte of flags, a number of three bytes and some small fields: packed right with a pointer to the byte, not with offsets from the start. -/
example : Packs .advancing [1, 1, 6, 24, 3, 5, 16] ∧ ComesBack .advancing [1, 1, 6, 24, 3, 5, 16] ∧ ¬ Packs .absolute [1, 1, 6, 24, 3, 5, 16] := by
  have hl : Layout .advancing [1, 1, 6, 24, 3, 5, 16] := (C119_layout_decidable_partial _).2 (by decide)
  refine ⟨(C119_packs_iff_partial _ _ (by decide)).2 hl, (C119_round_trip_iff_partial _ _ (by decide)).2 hl, fun h => ?_⟩
  have := (C119_packs_iff_partial .absolute _ (by decide)).1 h [1, 1, 6] 24 [3, 5, 16] rfl
  simp at this

/-- 32, 2, 3 and 19 bits (a time, two small enumerations and a code): the last one crosses byte boundaries. -/
example : ¬ ComesBack .advancing [32, 2, 3, 19] := fun h => by
  have := (C119_layout_decidable_partial _).1 ((C119_round_trip_iff_partial .advancing _ (by decide)).1 h)
  exact absurd this (by decide)

/-- The first field that is not made of whole bytes. -/
theorem first_ragged {ws : List Nat} (h : ¬ ∀ w ∈ ws, w % 8 = 0) : ∃ pre w post, ws = pre ++ w :: post ∧ pre.sum % 8 = 0 ∧ w % 8 ≠ 0 := by
  induction ws with
  | nil => exact absurd (fun w hw => nomatch hw) h
  | cons v ws ih =>
    by_cases hv : v % 8 = 0
    · obtain ⟨pre, w, post, e, h1, h2⟩ := ih (fun hn => h (fun w hw => by
        rcases List.mem_cons.1 hw with rfl | hw
        · exact hv
        · exact hn w hw))
      refine ⟨v :: pre, w, post, by rw [e]; rfl, ?_, h2⟩
      rw [List.sum_cons]; omega
    · exact ⟨[], v, ws, rfl, rfl, hv⟩

theorem fetch_whole {w p : Nat} {buf out : List Byte} (hp : p % 8 = 0) (hw8 : w % 8 = 0)
    (h1 : w ≤ 8 * out.length) (h2 : p + w ≤ 8 * buf.length) (hs : out.length < 2 ^ 61) :
    ∃ out', fetch .advancing w buf p out = .ok out' ∧ (∀ k, k < w → bit buf (p + k) = bit out' k) ∧
      out'.length = out.length ∧ ∀ k, w ≤ k → bit out' k = bit out k := by
  obtain ⟨out', a1, a2⟩ := fetch_fine (st := .advancing) (buf := buf) (out := out) (p := p) (w := w) (.inr (.inl hp)) h1 h2 hs
  refine ⟨out', a1, a2, ?_⟩
  rcases Nat.eq_zero_or_pos w with rfl | hw
  · rw [fetch_zero] at a1; cases a1; exact ⟨rfl, fun _ _ => rfl⟩
  obtain ⟨o, b1, b2, b3⟩ := fetch_form hw (fetch_defined hw hs a1) hs
  rw [a1] at b1
  cases b1
  refine ⟨b2, fun k hk => ?_⟩
  simp only [bit]
  simp only [Style.offset, hp] at b3
  rw [b3 _ _ (by omega), if_neg (by omega), if_neg (by omega)]

theorem unpack_whole {buf : List Byte} : ∀ {outs : List (Nat × List Byte)} {p : Nat}, p % 8 = 0 → (∀ x ∈ outs, x.1 % 8 = 0) →
    Hold outs → p + width outs ≤ 8 * buf.length →
    ∃ r, unpack .advancing buf outs p = .ok r ∧ r.map (·.1) = outs.map (·.1) ∧ Placed r p buf ∧ Kept outs r := by
  intro outs
  induction outs with
  | nil =>
    intro p _ _ _ _
    exact ⟨[], rfl, rfl, fun pre w f post e => absurd e (by simp), fun i w f g h => nomatch h⟩
  | cons x l ih =>
    intro p hp hf hh hl
    obtain ⟨w, f⟩ := x
    rw [Hold.cons] at hh
    rw [width_cons] at hl
    have hw := hf (w, f) List.mem_cons_self
    simp only at hw hh hl
    obtain ⟨o, a1, a2, a3, a4⟩ := fetch_whole (out := f) (buf := buf) hp hw hh.1.1 (by omega) hh.1.2
    obtain ⟨r, c1, c2, c3, c4⟩ := ih (p := p + w) (by omega) (fun x hx => hf x (List.mem_cons_of_mem _ hx)) hh.2 (by omega)
    refine ⟨(w, o) :: r, ?_, ?_, ?_, ?_⟩
    · simp only [unpack, a1, Outcome.ok_bind, c1, Outcome.pure_eq]
    · simp [c2]
    · rw [Placed.cons]
      exact ⟨a2, c3⟩
    · intro i v f' g hi hj
      cases i with
      | zero =>
        simp only [List.getElem?_cons_zero, Option.some.injEq, Prod.mk.injEq] at hi hj
        obtain ⟨rfl, rfl⟩ := hi
        obtain ⟨-, rfl⟩ := hj
        exact ⟨a3, a4⟩
      | succ i =>
        simp only [List.getElem?_cons_succ] at hi hj
        exact c4 i v f' g hi hj

/-- C119, partial: nothing but the bits of a field changes in a variable it is unpacked into (so that the variable need not be
masked afterwards) exactly if all fields consist of whole bytes. -/
theorem C119_clean_iff_partial (ws : List Nat) (hbig : ws.sum < 2 ^ 60) :
    UnpacksCleanly ws ↔ ∀ w ∈ ws, w % 8 = 0 := by
  constructor
  · intro h
    apply Classical.byContradiction
    intro hn
    obtain ⟨pre, w, post, rfl, hp, hw8⟩ := first_ragged hn
    obtain ⟨r, h1, h2, h3, h4⟩ := h (zeros (pre ++ w :: post)) (List.replicate ((pre ++ w :: post).sum + 1) 0xFF) (zeros_map _)
      (zeros_hold hbig) (by simp only [List.length_replicate]; omega)
    obtain ⟨r1, o, r2, e1, e2, e3⟩ := unpack_split h1
    have hl : r1.length = pre.length := by rw [← e2, List.length_map]
    have hk := (h4 pre.length w (List.replicate (w + 1) 0) o (by simp [zeros]) (by rw [e1, ← hl]; simp)).2 w (Nat.le_refl w)
    rw [bit_replicate_zero] at hk
    have hw : 0 < w := by omega
    rw [List.sum_append, List.sum_cons] at *
    obtain ⟨o', b1, b2, b3⟩ := fetch_form hw (fetch_defined hw (by simp only [List.length_replicate]; omega) e3)
      (by simp only [List.length_replicate]; omega)
    rw [e3] at b1
    cases b1
    simp only [bit] at hk
    simp only [Style.offset, Style.base, hp] at b3
    have hb := b3 (w / 8) (w % 8) (by omega)
    rw [hk, getD_replicate _ (by omega), ff_getLsbD, ff_getLsbD] at hb
    by_cases h0 : w / 8 = 0
    · rw [if_pos (by omega), if_pos (by omega)] at hb
      have := (decide_eq_false_iff_not.1 hb.symm); omega
    · rw [if_neg (by omega), if_pos (by omega)] at hb
      have := (decide_eq_false_iff_not.1 hb.symm); omega
  · intro h outs buf hf hh hl
    obtain ⟨r, a1, a2, a3, a4⟩ := unpack_whole (p := 0) (buf := buf) (outs := outs) rfl
      (fun x hx => h x.1 (by rw [← hf]; exact List.mem_map_of_mem hx)) hh (by rw [width, hf]; omega)
    exact ⟨r, a1, by rw [a2, hf], a3, a4⟩

/-- Fields of whole bytes. -/
example : UnpacksCleanly [8, 32, 0, 16] := (C119_clean_iff_partial _ (by decide)).2 (by decide)

/-- What happens to 32, 2, 3 and 19 bits: the code 0x7ABCD arrives as 0x00305, and the variables of the small fields hold more than their fields. -/
example : (do
    let m ← pack .advancing [(32, [1, 2, 3, 4]), (2, [3]), (3, [5]), (19, [0xCD, 0xAB, 0x07])] 0 (List.replicate 7 0)
    unpack .advancing m [(32, [0, 0, 0, 0]), (2, [0]), (3, [0]), (19, [0, 0, 0])] 0) =
    .ok [(32, [1, 2, 3, 4]), (2, [0xB7]), (3, [0x2D]), (19, [0x05, 0x03, 0x00])] := by decide +kernel

end Uavcan.CopyBits
