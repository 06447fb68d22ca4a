import Verif.Model.Message
import Verif.Spec.Message
import Verif.Props.CopyBits

/-! # Lemmas about packing and unpacking messages -/

namespace Uavcan.CopyBits
open Spec

/-- The fields the functions can deal with. -/
def Fine (off w : Nat) : Prop := w = 0 ∨ off = 0 ∨ off + w ≤ 8

theorem Style.place (st : Style) (p : Nat) : 8 * st.base p + st.offset p = p := by
  cases st <;> simp only [Style.base, Style.offset] <;> omega

theorem getD_drop (l : List Byte) (q j : Nat) : (l.drop q).getD j 0 = l.getD (q + j) 0 := by
  simp [List.getD_eq_getElem?_getD]

theorem getD_take_append (l r : List Byte) (q j : Nat) (hq : q ≤ l.length) :
    (l.take q ++ r).getD j 0 = if j < q then l.getD j 0 else r.getD (j - q) 0 := by
  simp only [List.getD_eq_getElem?_getD, List.getElem?_append, List.length_take]
  rw [Nat.min_eq_left hq]
  split
  · rename_i h; rw [List.getElem?_take_of_lt h]
  · rfl

theorem put_zero (st : Style) (f : List Byte) (p : Nat) (buf : List Byte) : put st 0 f p buf = .ok buf := by
  simp [put, copyBitsAlignedToUnaligned]

theorem fetch_zero (st : Style) (buf : List Byte) (p : Nat) (out : List Byte) : fetch st 0 buf p out = .ok out := by
  simp [fetch, copyBitsUnalignedToAligned]

/-- Packing a field, where defined. -/
theorem put_form {st : Style} {w : Nat} {f : List Byte} {p : Nat} {buf : List Byte} (hw : 0 < w)
    (ht : ∀ j, Touched (st.offset p) w j → j < f.length ∧ j < (buf.drop (st.base p)).length) (hs : buf.length < 2 ^ 61) :
    ∃ buf', put st w f p buf = .ok buf' ∧ buf'.length = buf.length ∧
      (∀ j b, b < 8 → j < st.base p → (buf'.getD j 0).getLsbD b = (buf.getD j 0).getLsbD b) ∧
      (∀ j b, b < 8 → (buf'.getD (st.base p + j) 0).getLsbD b =
        if Touched (st.offset p) w j ∧ st.offset p % 8 ≤ b then (f.getD j 0).getLsbD (b - st.offset p % 8)
        else if Touched (st.offset p) w j ∧ 8 * (j + 1) + st.offset p % 8 < w then
          ((buf.getD (st.base p + j) 0).getLsbD b || (f.getD (j + 1) 0).getLsbD (8 - st.offset p % 8 + b))
        else (buf.getD (st.base p + j) 0).getLsbD b) := by
  have hq : st.base p ≤ buf.length := by
    have := (ht (st.offset p / 8) (.inl rfl)).2
    rw [List.length_drop] at this
    omega
  obtain ⟨n, d, h1, h2, h3⟩ := C31_closed_form_partial hw ht (by rw [List.length_drop]; omega)
  refine ⟨buf.take (st.base p) ++ d, ?_, ?_, ?_, ?_⟩
  · simp only [put, h1, Outcome.ok_bind, Outcome.pure_eq, Option.getD_some]
  · rw [List.length_append, List.length_take, h2, List.length_drop]; omega
  · intro j b hb hj
    rw [getD_take_append _ _ _ _ hq, if_pos hj]
  · intro j b hb
    rw [getD_take_append _ _ _ _ hq, if_neg (by omega), show st.base p + j - st.base p = j by omega, h3 j b hb]
    simp only [getD_drop]

/-- Unpacking a field, where defined. -/
theorem fetch_form {st : Style} {w : Nat} {p : Nat} {buf out : List Byte} (hw : 0 < w)
    (ht : ∀ j, Touched (st.offset p) w j → j < (buf.drop (st.base p)).length ∧ j < out.length) (hs : out.length < 2 ^ 61) :
    ∃ out', fetch st w buf p out = .ok out' ∧ out'.length = out.length ∧
      ∀ j b, b < 8 → (out'.getD j 0).getLsbD b =
        if j = st.offset p / 8 then (if b < 8 - st.offset p % 8 then (buf.getD (st.base p + j) 0).getLsbD (st.offset p % 8 + b)
          else (out.getD j 0).getLsbD b)
        else if st.offset p / 8 < j ∧ 8 * j + st.offset p % 8 < w then
          (buf.getD (st.base p + j) 0).getLsbD ((st.offset p % 8 + b) % 8)
        else (out.getD j 0).getLsbD b := by
  obtain ⟨n, d, h1, h2, h3⟩ := C30_closed_form_partial hw ht hs
  refine ⟨d, ?_, h2, ?_⟩
  · simp only [fetch, h1, Outcome.ok_bind, Outcome.pure_eq, Option.getD_some]
  · intro j b hb
    rw [h3 j b hb]
    simp only [getD_drop]

/-- If the packing of a field is defined, the bytes needed are there. -/
theorem put_defined {st : Style} {w : Nat} {f : List Byte} {p : Nat} {buf buf' : List Byte} (hw : 0 < w)
    (hs : buf.length < 2 ^ 61) (h : put st w f p buf = .ok buf') :
    ∀ j, Touched (st.offset p) w j → j < f.length ∧ j < (buf.drop (st.base p)).length := by
  have hd := C32_defined_iff_partial f (buf.drop (st.base p)) (st.offset p) w hw (by rw [List.length_drop]; omega)
  apply Classical.byContradiction
  intro hn
  rw [put, (hd.2.2 hn).2] at h
  cases h

theorem fetch_defined {st : Style} {w : Nat} {p : Nat} {buf out out' : List Byte} (hw : 0 < w)
    (hs : out.length < 2 ^ 61) (h : fetch st w buf p out = .ok out') :
    ∀ j, Touched (st.offset p) w j → j < (buf.drop (st.base p)).length ∧ j < out.length := by
  have hd := C32_defined_iff_partial (buf.drop (st.base p)) out (st.offset p) w hw hs
  apply Classical.byContradiction
  intro hn
  rw [fetch, (hd.2.2 hn).1] at h
  cases h

theorem put_length {st : Style} {w : Nat} {f : List Byte} {p : Nat} {buf buf' : List Byte} (hs : buf.length < 2 ^ 61)
    (h : put st w f p buf = .ok buf') : buf'.length = buf.length := by
  rcases Nat.eq_zero_or_pos w with rfl | hw
  · rw [put_zero] at h; cases h; rfl
  · obtain ⟨b, h1, h2, -⟩ := put_form hw (put_defined hw hs h) hs
    rw [h] at h1; cases h1; exact h2

/-- A fine field arrives, and what is before it stays. -/
theorem put_fine {st : Style} {w : Nat} {f : List Byte} {p : Nat} {buf : List Byte} (hf : Fine (st.offset p) w)
    (h1 : w ≤ 8 * f.length) (h2 : p + w ≤ 8 * buf.length) (hs : buf.length < 2 ^ 61) :
    ∃ buf', put st w f p buf = .ok buf' ∧ buf'.length = buf.length ∧ (∀ i, i < p → bit buf' i = bit buf i) ∧
      ∀ k, k < w → bit buf' (p + k) = bit f k := by
  rcases Nat.eq_zero_or_pos w with rfl | hw
  · exact ⟨buf, put_zero .., rfl, fun _ _ => rfl, fun k hk => absurd hk (by omega)⟩
  have hp := st.place p
  have ho : st.offset p < 8 := by unfold Fine at hf; omega
  obtain ⟨buf', a1, a2, a3, a4⟩ := put_form (st := st) (w := w) (f := f) (p := p) (buf := buf) hw (by
    intro j hj
    simp only [Touched] at hj
    unfold Fine at hf
    rw [List.length_drop]
    omega) hs
  refine ⟨buf', a1, a2, ?_, ?_⟩
  · intro i hi
    simp only [bit]
    by_cases hb : i / 8 < st.base p
    · exact a3 _ _ (by omega) hb
    · have := a4 (i / 8 - st.base p) (i % 8) (by omega)
      rw [show st.base p + (i / 8 - st.base p) = i / 8 by omega] at this
      rw [this, if_neg (by omega), if_neg (by unfold Fine at hf; omega)]
  · intro k hk
    simp only [bit]
    have := a4 ((p + k) / 8 - st.base p) ((p + k) % 8) (by omega)
    rw [show st.base p + ((p + k) / 8 - st.base p) = (p + k) / 8 by omega] at this
    rw [this, if_pos (by unfold Fine at hf; simp only [Touched]; omega)]
    have e1 : (p + k) / 8 - st.base p = k / 8 := by unfold Fine at hf; omega
    have e2 : (p + k) % 8 - st.offset p % 8 = k % 8 := by unfold Fine at hf; omega
    rw [e1, e2]

theorem fetch_fine {st : Style} {w : Nat} {p : Nat} {buf out : List Byte} (hf : Fine (st.offset p) w)
    (h1 : w ≤ 8 * out.length) (h2 : p + w ≤ 8 * buf.length) (hs : out.length < 2 ^ 61) :
    ∃ out', fetch st w buf p out = .ok out' ∧ ∀ k, k < w → bit buf (p + k) = bit out' k := by
  rcases Nat.eq_zero_or_pos w with rfl | hw
  · exact ⟨out, fetch_zero .., fun k hk => absurd hk (by omega)⟩
  have hp := st.place p
  have ho : st.offset p < 8 := by unfold Fine at hf; omega
  obtain ⟨out', a1, a2, a3⟩ := fetch_form (st := st) (w := w) (out := out) (p := p) (buf := buf) hw (by
    intro j hj
    simp only [Touched] at hj
    unfold Fine at hf
    rw [List.length_drop]
    omega) hs
  refine ⟨out', a1, ?_⟩
  intro k hk
  simp only [bit]
  rw [a3 (k / 8) (k % 8) (by omega)]
  unfold Fine at hf
  by_cases h0 : k / 8 = st.offset p / 8
  · rw [if_pos h0, if_pos (by omega), show (p + k) / 8 = st.base p + k / 8 by omega,
      show (p + k) % 8 = st.offset p % 8 + k % 8 by omega]
  · rw [if_neg h0, if_pos (by omega), show (p + k) / 8 = st.base p + k / 8 by omega,
      show (p + k) % 8 = (st.offset p % 8 + k % 8) % 8 by omega]

theorem width_cons (x : Nat × List Byte) (l : List (Nat × List Byte)) : width (x :: l) = x.1 + width l := by
  simp [width]

theorem width_append (l r : List (Nat × List Byte)) : width (l ++ r) = width l + width r := by
  simp [width]

/-- All fields are fine from position `p` on. -/
def AllFine (st : Style) (fields : List (Nat × List Byte)) (p : Nat) : Prop :=
  ∀ pre x post, fields = pre ++ x :: post → Fine (st.offset (p + width pre)) x.1

theorem AllFine.cons {st : Style} {x : Nat × List Byte} {l : List (Nat × List Byte)} {p : Nat} :
    AllFine st (x :: l) p ↔ Fine (st.offset p) x.1 ∧ AllFine st l (p + x.1) := by
  constructor
  · intro h
    refine ⟨h [] x l rfl, fun pre y post e => ?_⟩
    have := h (x :: pre) y post (by rw [e]; rfl)
    rw [width_cons] at this
    rw [Nat.add_assoc]; exact this
  · rintro ⟨h1, h2⟩ pre y post e
    cases pre with
    | nil => cases e; exact h1
    | cons z pre =>
      rw [List.cons_append] at e
      injection e with e1 e2
      subst e1
      have := h2 pre y post e2
      rw [width_cons, ← Nat.add_assoc]; exact this

theorem Placed.cons {w : Nat} {f : List Byte} {l : List (Nat × List Byte)} {p : Nat} {buf : List Byte} :
    Placed ((w, f) :: l) p buf ↔ (∀ k, k < w → bit buf (p + k) = bit f k) ∧ Placed l (p + w) buf := by
  constructor
  · intro h
    refine ⟨fun k hk => h [] w f l rfl k hk, fun pre v g post e k hk => ?_⟩
    have := h ((w, f) :: pre) v g post (by rw [e]; rfl) k hk
    rw [width_cons] at this
    rw [← this]; congr 1; simp only; omega
  · rintro ⟨h1, h2⟩ pre v g post e k hk
    cases pre with
    | nil => cases e; exact h1 k hk
    | cons z pre =>
      rw [List.cons_append] at e
      injection e with e1 e2
      subst e1
      have := h2 pre v g post e2 k hk
      rw [width_cons, ← this]; congr 1; simp only; omega

theorem Hold.cons {x : Nat × List Byte} {l : List (Nat × List Byte)} :
    Hold (x :: l) ↔ (x.1 ≤ 8 * x.2.length ∧ x.2.length < 2 ^ 61) ∧ Hold l := by simp [Hold]

theorem pack_fine {st : Style} : ∀ {fields : List (Nat × List Byte)} {p : Nat} {buf : List Byte}, AllFine st fields p →
    Hold fields → p + width fields ≤ 8 * buf.length → buf.length < 2 ^ 61 →
    ∃ buf', pack st fields p buf = .ok buf' ∧ buf'.length = buf.length ∧ (∀ i, i < p → bit buf' i = bit buf i) ∧ Placed fields p buf' := by
  intro fields
  induction fields with
  | nil =>
    intro p buf _ _ _ _
    exact ⟨buf, rfl, rfl, fun _ _ => rfl, fun pre w f post e => absurd e (by simp)⟩
  | cons x l ih =>
    intro p buf hf hh hl hs
    obtain ⟨w, f⟩ := x
    rw [AllFine.cons] at hf
    rw [Hold.cons] at hh
    rw [width_cons] at hl
    simp only at hf hh hl
    obtain ⟨b1, a1, a2, a3, a4⟩ := put_fine (f := f) (buf := buf) hf.1 hh.1.1 (by omega) hs
    obtain ⟨b2, c1, c2, c3, c4⟩ := ih (p := p + w) (buf := b1) hf.2 hh.2 (by rw [a2]; omega) (by omega)
    refine ⟨b2, ?_, by omega, fun i hi => by rw [c3 i (by omega), a3 i hi], ?_⟩
    · simp only [pack, a1, Outcome.ok_bind, c1]
    · rw [Placed.cons]
      exact ⟨fun k hk => by rw [c3 _ (by omega), a4 k hk], c4⟩

theorem unpack_fine {st : Style} {buf : List Byte} : ∀ {outs : List (Nat × List Byte)} {p : Nat}, AllFine st outs p →
    Hold outs → p + width outs ≤ 8 * buf.length →
    ∃ r, unpack st buf outs p = .ok r ∧ r.map (·.1) = outs.map (·.1) ∧ Placed r p buf := by
  intro outs
  induction outs with
  | nil =>
    intro p _ _ _
    exact ⟨[], rfl, rfl, fun pre w f post e => absurd e (by simp)⟩
  | cons x l ih =>
    intro p hf hh hl
    obtain ⟨w, f⟩ := x
    rw [AllFine.cons] at hf
    rw [Hold.cons] at hh
    rw [width_cons] at hl
    simp only at hf hh hl
    obtain ⟨o, a1, a2⟩ := fetch_fine (out := f) (buf := buf) hf.1 hh.1.1 (by omega) hh.1.2
    obtain ⟨r, c1, c2, c3⟩ := ih (p := p + w) hf.2 hh.2 (by omega)
    refine ⟨(w, o) :: r, ?_, ?_, ?_⟩
    · simp only [unpack, a1, Outcome.ok_bind, c1, Outcome.pure_eq]
    · simp [c2]
    · rw [Placed.cons]
      exact ⟨a2, c3⟩

/-! ## What goes wrong otherwise -/

/-- Packing zeros sets no bit. -/
theorem put_zeros {st : Style} {w : Nat} {n p : Nat} {buf buf' : List Byte} (hs : buf.length < 2 ^ 61)
    (h : put st w (List.replicate n 0) p buf = .ok buf') {i : Nat} (hi : bit buf i = false) : bit buf' i = false := by
  rcases Nat.eq_zero_or_pos w with rfl | hw
  · rw [put_zero] at h; cases h; exact hi
  obtain ⟨b, a1, a2, a3, a4⟩ := put_form hw (put_defined hw hs h) hs
  rw [h] at a1
  cases a1
  have hz : ∀ j b, ((List.replicate n (0 : Byte)).getD j 0).getLsbD b = false := by
    intro j b
    simp only [List.getD_eq_getElem?_getD, List.getElem?_replicate]
    split <;> simp
  simp only [bit] at hi ⊢
  by_cases hb : i / 8 < st.base p
  · rw [a3 _ _ (by omega) hb]; exact hi
  · have := a4 (i / 8 - st.base p) (i % 8) (by omega)
    rw [show st.base p + (i / 8 - st.base p) = i / 8 by omega] at this
    rw [this, hz, hz, hi]
    simp

/-- Fields of zeros with the given widths. -/
def zeros (ws : List Nat) : List (Nat × List Byte) := ws.map fun w => (w, List.replicate (w + 1) 0)

theorem pack_zeros {st : Style} : ∀ {ws : List Nat} {p : Nat} {buf buf' : List Byte}, buf.length < 2 ^ 61 →
    pack st (zeros ws) p buf = .ok buf' → buf'.length = buf.length ∧ ∀ i, bit buf i = false → bit buf' i = false := by
  intro ws
  induction ws with
  | nil => intro p buf buf' _ h; cases h; exact ⟨rfl, fun _ h => h⟩
  | cons w ws ih =>
    intro p buf buf' hs h
    simp only [zeros, List.map_cons, pack] at h
    rw [Outcome.bind_eq_ok] at h
    obtain ⟨b, h1, h2⟩ := h
    have hl := put_length hs h1
    obtain ⟨g1, g2⟩ := ih (by omega) h2
    exact ⟨by omega, fun i hi => g2 i (put_zeros hs h1 hi)⟩

theorem pack_append {st : Style} : ∀ {a b : List (Nat × List Byte)} {p : Nat} {buf : List Byte},
    pack st (a ++ b) p buf = pack st a p buf >>= fun buf => pack st b (p + width a) buf := by
  intro a
  induction a with
  | nil => intro b p buf; rfl
  | cons x l ih =>
    intro b p buf
    obtain ⟨w, f⟩ := x
    simp only [List.cons_append, pack, width_cons]
    cases put st w f p buf with
    | ub r => rfl
    | ok buf => simp only [Outcome.ok_bind, ih, Nat.add_assoc]

theorem unpack_append {st : Style} {buf : List Byte} : ∀ {a b : List (Nat × List Byte)} {p : Nat},
    unpack st buf (a ++ b) p = unpack st buf a p >>= fun r => unpack st buf b (p + width a) >>= fun s => pure (r ++ s) := by
  intro a
  induction a with
  | nil =>
    intro b p
    simp only [List.nil_append, unpack, Outcome.ok_bind, width, List.map_nil, List.sum_nil, Nat.add_zero]
    cases unpack st buf b p <;> rfl
  | cons x l ih =>
    intro b p
    obtain ⟨w, f⟩ := x
    simp only [List.cons_append, unpack, width_cons]
    cases fetch st w buf p f with
    | ub r => rfl
    | ok o =>
      simp only [Outcome.ok_bind, ih, Nat.add_assoc]
      cases unpack st buf l (p + w) with
      | ub r => rfl
      | ok r =>
        simp only [Outcome.ok_bind]
        cases unpack st buf b (p + (w + width l)) with
        | ub r => rfl
        | ok r => rfl

/-- A bit of a field that does not arrive. -/
def lostBit (st : Style) (p : Nat) : Nat := if st.offset p < 8 then 8 - st.offset p else 0

/-- The first byte of the field has all its bits set, the others none. -/
def marked (w : Nat) : List Byte := 0xFF :: List.replicate w 0

theorem marked_bit (w : Nat) {i : Nat} (hi : i < 8) : bit (marked w) i = true := by
  rw [bit_eq_getD (j := 0) (b := i) (by omega) (by omega)]
  simp only [marked, List.getD_cons_zero]
  rw [ff_getLsbD]; simp [hi]

theorem marked_zero (w j b : Nat) (hj : 0 < j) : ((marked w).getD j 0).getLsbD b = false := by
  obtain ⟨j, rfl⟩ : ∃ k, j = k + 1 := ⟨j - 1, by omega⟩
  simp only [marked, List.getD_cons_succ]
  simp only [List.getD_eq_getElem?_getD, List.getElem?_replicate]
  split <;> simp

theorem lostBit_lt {st : Style} {w p : Nat} (hf : ¬ Fine (st.offset p) w) : lostBit st p < w ∧ lostBit st p < 8 := by
  unfold Fine at hf
  unfold lostBit
  split <;> omega

theorem put_lost {st : Style} {w p : Nat} {buf buf' : List Byte} (hf : ¬ Fine (st.offset p) w) (hs : buf.length < 2 ^ 61)
    (h : put st w (marked w) p buf = .ok buf') (hi : bit buf (p + lostBit st p) = false) : bit buf' (p + lostBit st p) = false := by
  have hw : 0 < w := by unfold Fine at hf; omega
  have hp := st.place p
  obtain ⟨b, a1, a2, a3, a4⟩ := put_form hw (put_defined hw hs h) hs
  rw [h] at a1
  cases a1
  simp only [bit] at hi ⊢
  unfold Fine at hf
  unfold lostBit at hi ⊢
  by_cases ho : st.offset p < 8
  · rw [if_pos ho] at hi ⊢
    have e1 : (p + (8 - st.offset p)) / 8 = st.base p + 1 := by omega
    have e2 : (p + (8 - st.offset p)) % 8 = 0 := by omega
    rw [e1, e2] at hi ⊢
    rw [a4 1 0 (by omega), if_neg (by omega), marked_zero _ _ _ (by omega), hi]
    simp
  · rw [if_neg ho] at hi ⊢
    have := a4 ((p + 0) / 8 - st.base p) ((p + 0) % 8) (by omega)
    rw [show st.base p + ((p + 0) / 8 - st.base p) = (p + 0) / 8 by omega] at this
    rw [this, marked_zero _ _ _ (by omega), marked_zero _ _ _ (by omega), hi]
    simp

theorem fetch_lost {st : Style} {w p n : Nat} {buf out' : List Byte} (hf : ¬ Fine (st.offset p) w) (hs : n < 2 ^ 61)
    (h : fetch st w buf p (List.replicate n 0) = .ok out') : bit out' (lostBit st p) = false := by
  have hw : 0 < w := by unfold Fine at hf; omega
  obtain ⟨o, a1, a2, a3⟩ := fetch_form hw (fetch_defined hw (by simpa using hs) h) (by simpa using hs)
  rw [h] at a1
  cases a1
  have hz : ∀ j b, ((List.replicate n (0 : Byte)).getD j 0).getLsbD b = false := by
    intro j b
    simp only [List.getD_eq_getElem?_getD, List.getElem?_replicate]
    split <;> simp
  simp only [bit]
  unfold Fine at hf
  unfold lostBit
  rw [a3 _ _ (by omega)]
  by_cases ho : st.offset p < 8
  · rw [if_pos ho]
    by_cases h0 : st.offset p = 0
    · omega
    · rw [if_pos (by omega), if_neg (by omega), hz]
  · rw [if_neg ho, if_neg (by omega), if_neg (by omega), hz]

end Uavcan.CopyBits
