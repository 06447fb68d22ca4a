import Verif.Spec.Stdio
import Verif.Lemmas.OnTarget

/-!
# C111: what the on-target tests print arrives at the terminal
-/

namespace Uavcan.TestSys
open Spec.Stdio OnTarget

/-- The stub `_write` (test_sys.c:50–60) as the device of a stream. -/
def stub (u : Uart) (fuel : Nat) : Device State := fun p s => write u fuel (some (cstr p)) p.length s

/-- The property as stated in `properties.jsonl`: after a program whose last call flushes the stream, the terminal has got
everything that it printed. -/
def C111_Statement (B : Nat) : Prop :=
  ∀ (u : Uart), u.Sends → ∀ (ops : List Op) (s : State), ∃ fuel rs f,
    run (stub u fuel) B (ops ++ [.flush]) ⟨[], s⟩ = some (rs, f) ∧ sent f.world.log = sent s.log ++ printed ops

/-! ## Lemmas -/

theorem stub_sent {u : Uart} {fuel : Nat} {p : List Byte} (hp : p ≠ []) {s : State} {r : Int × State} (h : stub u fuel p s = some r) :
    r.1 = 0 ∧ sent r.2.log = sent s.log ++ p := by
  obtain ⟨t, s'⟩ := r
  have h2 := (write_sent u fuel _ _ _ _ _ h).1
  rw [cstr_range] at h2
  refine ⟨?_, h2⟩
  unfold stub write at h
  simp only at h
  rw [if_neg (by simpa using hp)] at h
  obtain ⟨s1, _, h3⟩ := Option.bind_eq_some_iff.1 h
  injection h3 with h3
  injection h3 with h3 _
  exact h3.symm

theorem stub_ends (u : Uart) (hu : u.Sends) (p : List Byte) (hp : p ≠ []) (s : State) : ∃ fuel r, stub u fuel p s = some r := by
  have : 0 < p.length := List.length_pos_iff.2 hp
  obtain ⟨fuel, s', h, _⟩ := (C57_write_partial u hu (cstr p) p.length s).1 this
  exact ⟨fuel, _, h⟩

theorem stub_mono {u : Uart} {f g : Nat} (hle : f ≤ g) {p : List Byte} {s : State} {r : Int × State} (h : stub u f p s = some r) :
    stub u g p s = some r := write_mono u f g _ _ _ _ hle h

/-- With the stub, a flush sends what is in the buffer, and fails unless that is nothing. -/
theorem flush_stub {u : Uart} {fuel : Nat} {f f' : File State} {ok : Bool} (h : flush (stub u fuel) f = some (ok, f')) :
    f'.buf = [] ∧ sent f'.world.log = sent f.world.log ++ f.buf ∧ (ok = true ↔ f.buf = []) := by
  unfold flush at h
  rw [writeOut] at h
  by_cases hb : f.buf = []
  · rw [dif_pos hb] at h
    simp only [Option.some.injEq, Prod.mk.injEq] at h
    obtain ⟨rfl, rfl⟩ := h
    simp [hb]
  · rw [dif_neg hb] at h
    cases hw : stub u fuel f.buf f.world with
    | none => rw [hw] at h; cases h
    | some r =>
      obtain ⟨h1, h2⟩ := stub_sent hb hw
      obtain ⟨t, s'⟩ := r
      simp only at h1 h2
      subst h1
      rw [hw] at h
      simp only [Int.le_refl, dite_true, Option.some.injEq, Prod.mk.injEq] at h
      obtain ⟨rfl, rfl⟩ := h
      exact ⟨rfl, h2, by simp [hb]⟩

/-- With the stub, a text that fits into the buffer goes there; of one that does not, only as much as fits is sent, with what was
in the buffer. -/
theorem print_stub {u : Uart} {fuel B : Nat} (hB : 0 < B) : ∀ {t : List Byte} {f f' : File State} {ok : Bool}, f.buf.length ≤ B →
    print (stub u fuel) B t f = some (ok, f') →
    if f.buf.length + t.length ≤ B then f' = ⟨f.buf ++ t, f.world⟩ ∧ ok = true
    else f'.buf = [] ∧ sent f'.world.log = sent f.world.log ++ (f.buf ++ t.take (B - f.buf.length)) ∧ ok = false := by
  intro t
  induction t with
  | nil =>
    intro f f' ok hb h
    simp only [print, Option.some.injEq, Prod.mk.injEq] at h
    obtain ⟨rfl, rfl⟩ := h
    rw [if_pos (by simpa using hb)]
    simp
  | cons c cs ih =>
    intro f f' ok hb h
    simp only [print] at h
    by_cases hr : f.buf.length < B
    · have hp : putc (stub u fuel) B c f = some (true, { f with buf := f.buf ++ [c] }) := by
        unfold putc; rw [if_pos hr]
      rw [hp] at h
      simp only at h
      have := ih (f := { f with buf := f.buf ++ [c] }) (by simp; omega) h
      simp only [List.length_append, List.length_cons, List.length_nil] at this ⊢
      by_cases hf : f.buf.length + (cs.length + 1) ≤ B
      · rw [if_pos (by omega)] at this
        rw [if_pos hf]
        simpa using this
      · rw [if_neg (by omega)] at this
        rw [if_neg hf]
        obtain ⟨h1, h2, h3⟩ := this
        refine ⟨h1, ?_, h3⟩
        rw [h2, show B - f.buf.length = (B - (f.buf.length + (0 + 1))) + 1 by omega, List.take_succ_cons]
        simp
    · have hlen : f.buf.length = B := by omega
      have hne : f.buf ≠ [] := by intro he; rw [he] at hlen; simp at hlen; omega
      unfold putc at h
      rw [if_neg hr] at h
      cases hw : flush (stub u fuel) f with
      | none => rw [hw] at h; cases h
      | some r =>
        obtain ⟨b, f1⟩ := r
        obtain ⟨h1, h2, h3⟩ := flush_stub hw
        rw [hw] at h
        cases b with
        | true => exact absurd (h3.1 rfl) hne
        | false =>
          simp only [Option.some.injEq, Prod.mk.injEq] at h
          obtain ⟨rfl, rfl⟩ := h
          rw [if_neg (by simp; omega)]
          refine ⟨h1, ?_, rfl⟩
          rw [h2, hlen]
          simp

theorem flush_ends (u : Uart) (hu : u.Sends) (f : File State) : ∃ fuel r, ∀ g, fuel ≤ g → flush (stub u g) f = some r := by
  by_cases hb : f.buf = []
  · refine ⟨0, (true, ⟨[], f.world⟩), fun g _ => ?_⟩
    unfold flush
    rw [writeOut, dif_pos hb]
  · obtain ⟨fuel, r, h⟩ := stub_ends u hu f.buf hb f.world
    obtain ⟨h1, -⟩ := stub_sent hb h
    refine ⟨fuel, (false, ⟨[], r.2⟩), fun g hg => ?_⟩
    unfold flush
    rw [writeOut, dif_neg hb, stub_mono hg h]
    simp only [h1, Int.le_refl, dite_true]

theorem putc_ends (u : Uart) (hu : u.Sends) (B : Nat) (c : Byte) (f : File State) :
    ∃ fuel r, ∀ g, fuel ≤ g → putc (stub u g) B c f = some r := by
  by_cases hr : f.buf.length < B
  · exact ⟨0, _, fun g _ => by unfold putc; rw [if_pos hr]⟩
  · obtain ⟨fuel, ⟨b, f1⟩, h⟩ := flush_ends u hu f
    cases b with
    | true => exact ⟨fuel, _, fun g hg => by unfold putc; rw [if_neg hr, h g hg]⟩
    | false => exact ⟨fuel, _, fun g hg => by unfold putc; rw [if_neg hr, h g hg]⟩

theorem print_ends (u : Uart) (hu : u.Sends) (B : Nat) : ∀ (t : List Byte) (f : File State),
    ∃ fuel r, ∀ g, fuel ≤ g → print (stub u g) B t f = some r := by
  intro t
  induction t with
  | nil => intro f; exact ⟨0, _, fun g _ => rfl⟩
  | cons c cs ih =>
    intro f
    obtain ⟨n1, ⟨b, f1⟩, h1⟩ := putc_ends u hu B c f
    cases b with
    | false => exact ⟨n1, (false, f1), fun g hg => by simp only [print, h1 g hg]⟩
    | true =>
      obtain ⟨n2, r, h2⟩ := ih f1
      refine ⟨max n1 n2, r, fun g hg => ?_⟩
      simp only [print, h1 g (by omega)]
      exact h2 g (by omega)

theorem step_ends (u : Uart) (hu : u.Sends) (B : Nat) (o : Op) (f : File State) :
    ∃ fuel r, ∀ g, fuel ≤ g → step (stub u g) B o f = some r := by
  cases o with
  | print t => exact print_ends u hu B t f
  | flush => exact flush_ends u hu f

theorem run_ends (u : Uart) (hu : u.Sends) (B : Nat) : ∀ (os : List Op) (f : File State),
    ∃ fuel r, ∀ g, fuel ≤ g → run (stub u g) B os f = some r := by
  intro os
  induction os with
  | nil => intro f; exact ⟨0, _, fun g _ => rfl⟩
  | cons o os ih =>
    intro f
    obtain ⟨n1, ⟨b, f1⟩, h1⟩ := step_ends u hu B o f
    obtain ⟨n2, ⟨rs, f2⟩, h2⟩ := ih f1
    exact ⟨max n1 n2, (b :: rs, f2), fun g hg => by simp only [run, h1 g (by omega), h2 g (by omega)]⟩

/-- One call of a program with the stub: what it does to the buffer and what it sends. -/
theorem step_stub {u : Uart} {fuel B : Nat} (hB : 0 < B) {o : Op} {f f' : File State} {ok : Bool} (hb : f.buf.length ≤ B)
    (h : step (stub u fuel) B o f = some (ok, f')) : f'.buf.length ≤ B ∧
    ∃ out, sent f'.world.log = sent f.world.log ++ out ∧ (out ++ f'.buf).length ≤ (f.buf ++ printed [o]).length ∧
      ((out ++ f'.buf).length = (f.buf ++ printed [o]).length → out ++ f'.buf = f.buf ++ printed [o]) ∧
      ((out ++ f'.buf).length = (f.buf ++ printed [o]).length ↔ ∀ t, o = .print t → f.buf.length + t.length ≤ B) ∧
      ((∀ t, o = .print t → f.buf.length + t.length ≤ B) →
        f'.buf.length = match o with | .print t => f.buf.length + t.length | .flush => 0) := by
  cases o with
  | flush =>
    obtain ⟨h1, h2, -⟩ := flush_stub h
    refine ⟨by rw [h1]; simp, f.buf, h2, by simp [h1, printed], fun _ => by simp [h1, printed], by simp [h1, printed], fun _ => by simp [h1]⟩
  | print t =>
    have := print_stub hB hb h
    split at this
    · rename_i hf
      obtain ⟨rfl, -⟩ := this
      refine ⟨by simpa using hf, [], by simp, by simp [printed], fun _ => by simp [printed], ?_, fun _ => by simp⟩
      simp [printed, hf]
    · rename_i hf
      obtain ⟨h1, h2, -⟩ := this
      refine ⟨by rw [h1]; simp, _, h2, ?_, ?_, ?_, ?_⟩
      · rw [h1]; simp [printed]; omega
      · intro he; exfalso; rw [h1] at he; simp [printed] at he; omega
      · rw [h1]
        constructor
        · intro he; exfalso; simp [printed] at he; omega
        · intro hh; exact absurd (hh t rfl) hf
      · intro hh; exact absurd (hh t rfl) hf

theorem printed_cons (o : Op) (os : List Op) : printed (o :: os) = printed [o] ++ printed os := by
  cases o <;> simp [printed]

theorem printed_append (a b : List Op) : printed (a ++ b) = printed a ++ printed b := by
  induction a with
  | nil => rfl
  | cons o os ih => rw [List.cons_append, printed_cons, ih, printed_cons o os]; simp

theorem run_stub {u : Uart} {fuel B : Nat} (hB : 0 < B) : ∀ {os : List Op} {f f' : File State} {rs : List Bool}, f.buf.length ≤ B →
    run (stub u fuel) B os f = some (rs, f') →
    ∃ out, sent f'.world.log = sent f.world.log ++ out ∧ (out ++ f'.buf).length ≤ (f.buf ++ printed os).length ∧
      (Fits B f.buf.length os → out ++ f'.buf = f.buf ++ printed os) ∧
      (¬ Fits B f.buf.length os → (out ++ f'.buf).length < (f.buf ++ printed os).length) := by
  intro os
  induction os with
  | nil =>
    intro f f' rs hb h
    simp only [run, Option.some.injEq, Prod.mk.injEq] at h
    obtain ⟨-, rfl⟩ := h
    exact ⟨[], by simp, by simp [printed], fun _ => by simp [printed], fun hn => absurd trivial hn⟩
  | cons o os ih =>
    intro f f' rs hb h
    simp only [run] at h
    cases hs : step (stub u fuel) B o f with
    | none => rw [hs] at h; cases h
    | some r =>
      obtain ⟨b, f1⟩ := r
      rw [hs] at h
      simp only at h
      cases hr : run (stub u fuel) B os f1 with
      | none => rw [hr] at h; cases h
      | some r2 =>
        obtain ⟨rs1, f2⟩ := r2
        rw [hr] at h
        simp only [Option.some.injEq, Prod.mk.injEq] at h
        obtain ⟨-, rfl⟩ := h
        obtain ⟨hb1, o1, a1, a2, a3, a4, a5⟩ := step_stub hB hb hs
        obtain ⟨o2, b1, b2, b3, b4⟩ := ih hb1 hr
        have hfit : Fits B f.buf.length (o :: os) ↔ (∀ t, o = .print t → f.buf.length + t.length ≤ B) ∧ Fits B f1.buf.length os := by
          constructor
          · intro hF
            have hx : ∀ t, o = .print t → f.buf.length + t.length ≤ B := by rintro t rfl; exact hF.1
            refine ⟨hx, ?_⟩
            have h5 := a5 hx
            cases o with
            | flush => rw [h5]; exact hF
            | print t => rw [h5]; exact hF.2
          · rintro ⟨hx, hF⟩
            have h5 := a5 hx
            cases o with
            | flush => rw [h5] at hF; exact hF
            | print t => rw [h5] at hF; exact ⟨hx t rfl, hF⟩
        rw [printed_cons]
        refine ⟨o1 ++ o2, by rw [b1, a1, List.append_assoc], ?_, ?_, ?_⟩
        · simp only [List.length_append] at *; omega
        · intro hF
          obtain ⟨hx, hF1⟩ := hfit.1 hF
          have e1 := a3 (a4.2 hx)
          rw [List.append_assoc, b3 hF1, ← List.append_assoc, e1, List.append_assoc]
        · intro hF
          rw [hfit] at hF
          by_cases hx : ∀ t, o = .print t → f.buf.length + t.length ≤ B
          · have := b4 (fun hF1 => hF ⟨hx, hF1⟩)
            simp only [List.length_append] at *; omega
          · have : (o1 ++ f1.buf).length ≠ (f.buf ++ printed [o]).length := fun he => hx (a4.1 he)
            simp only [List.length_append] at *; omega

theorem run_append {σ : Type} (w : Device σ) (B : Nat) : ∀ (a b : List Op) (f : File σ), run w B (a ++ b) f =
    match run w B a f with
    | none => none
    | some (rs, f) => match run w B b f with
      | none => none
      | some (qs, f) => some (rs ++ qs, f) := by
  intro a
  induction a with
  | nil => intro b f; simp only [run, List.nil_append]; cases run w B b f <;> rfl
  | cons o os ih =>
    intro b f
    simp only [List.cons_append, run]
    cases step w B o f with
    | none => rfl
    | some r =>
      obtain ⟨x, f1⟩ := r
      simp only [ih]
      cases run w B os f1 with
      | none => rfl
      | some r1 =>
        obtain ⟨y, f2⟩ := r1
        simp only
        cases run w B b f2 <;> rfl

theorem fits_flush (B : Nat) : ∀ (os : List Op) (n : Nat), Fits B n (os ++ [.flush]) ↔ Fits B n os := by
  intro os
  induction os with
  | nil => intro n; exact ⟨fun _ => trivial, fun _ => trivial⟩
  | cons o os ih =>
    intro n
    cases o with
    | print t => simp only [List.cons_append, Fits, ih]
    | flush => simp only [List.cons_append, Fits, ih]

theorem flushed_buf {u : Uart} {fuel B : Nat} {os : List Op} {f f' : File State} {rs : List Bool}
    (h : run (stub u fuel) B (os ++ [.flush]) f = some (rs, f')) : f'.buf = [] := by
  rw [run_append] at h
  cases hr : run (stub u fuel) B os f with
  | none => rw [hr] at h; cases h
  | some r =>
    obtain ⟨qs, f1⟩ := r
    rw [hr] at h
    simp only [run, step] at h
    cases hf : flush (stub u fuel) f1 with
    | none => rw [hf] at h; cases h
    | some r1 =>
      obtain ⟨b, f2⟩ := r1
      rw [hf] at h
      simp only [Option.some.injEq, Prod.mk.injEq] at h
      obtain ⟨-, rfl⟩ := h
      exact (flush_stub hf).1

/-! ## The property -/

/-- C111, partial: the program goes on to its end (if the transmitter does its work), and the terminal has got everything exactly
if between two flushes nothing more was printed than fits into the stream's buffer; it never gets more. Missing: the programs
that print more than that. -/
theorem C111_arrives_partial (u : Uart) (hu : u.Sends) (B : Nat) (hB : 0 < B) (ops : List Op) (s : State) :
    ∃ fuel rs f, run (stub u fuel) B (ops ++ [.flush]) ⟨[], s⟩ = some (rs, f) ∧
      ∃ out, sent f.world.log = sent s.log ++ out ∧ (out = printed ops ↔ Fits B 0 ops) ∧ out.length ≤ (printed ops).length := by
  obtain ⟨fuel, ⟨rs, f⟩, h⟩ := run_ends u hu B (ops ++ [.flush]) ⟨[], s⟩
  have h := h fuel (Nat.le_refl _)
  obtain ⟨out, h1, h2, h3, h4⟩ := run_stub hB (f := ⟨[], s⟩) (by simp) h
  have hbuf := flushed_buf h
  simp only [hbuf, List.append_nil, List.nil_append, List.length_nil, fits_flush, printed_append,
    show printed [Op.flush] = [] from rfl] at h2 h3 h4
  refine ⟨fuel, rs, f, h, out, h1, ⟨fun he => ?_, h3⟩, h2⟩
  rcases Classical.em (Fits B 0 ops) with hF | hF
  · exact hF
  · have := h4 hF; rw [he] at this; omega

/-- C111, partial: what one call of `printf` does. A text that fits into the buffer goes there. Of one that does not, the buffer's
content and as much as fits are sent, the rest is dropped, and the call reports an error. -/
theorem C111_text_partial (u : Uart) (fuel B : Nat) (hB : 0 < B) (t : List Byte) (f f' : File State) (ok : Bool) (hb : f.buf.length ≤ B)
    (h : print (stub u fuel) B t f = some (ok, f')) :
    (f.buf.length + t.length ≤ B → f' = ⟨f.buf ++ t, f.world⟩ ∧ ok = true) ∧
    (B < f.buf.length + t.length →
      f'.buf = [] ∧ sent f'.world.log = sent f.world.log ++ (f.buf ++ t).take B ∧ ok = false) := by
  have := print_stub hB hb h
  refine ⟨fun hf => by rwa [if_pos hf] at this, fun hf => ?_⟩
  rw [if_neg (by omega)] at this
  rw [List.take_append, List.take_of_length_le hb]
  exact this

/-- C111: `fflush` sends everything that is in the buffer, and reports an error each time that there was something. -/
theorem C111_flush (u : Uart) (fuel : Nat) (f f' : File State) (ok : Bool) (h : flush (stub u fuel) f = some (ok, f')) :
    f'.buf = [] ∧ sent f'.world.log = sent f.world.log ++ f.buf ∧ (ok = false ↔ f.buf ≠ []) := by
  obtain ⟨h1, h2, h3⟩ := flush_stub h
  refine ⟨h1, h2, ?_⟩
  rw [← Bool.not_eq_true, h3]

/-- `_write` as POSIX wants it: the number of bytes sent. -/
def counting (u : Uart) (fuel : Nat) : Device State := fun p s =>
  match stub u fuel p s with
  | none => none
  | some (_, s) => some (p.length, s)

theorem flush_counting {u : Uart} {fuel : Nat} {f f' : File State} {ok : Bool} (h : flush (counting u fuel) f = some (ok, f')) :
    f'.buf = [] ∧ sent f'.world.log = sent f.world.log ++ f.buf ∧ ok = true := by
  unfold flush at h
  rw [writeOut] at h
  by_cases hb : f.buf = []
  · rw [dif_pos hb] at h
    simp only [Option.some.injEq, Prod.mk.injEq] at h
    obtain ⟨rfl, rfl⟩ := h
    simp [hb]
  · rw [dif_neg hb] at h
    unfold counting at h
    cases hw : stub u fuel f.buf f.world with
    | none => rw [hw] at h; cases h
    | some r =>
      obtain ⟨t, s'⟩ := r
      have h2 := (stub_sent hb hw).2
      have hl : 0 < f.buf.length := List.length_pos_iff.2 hb
      rw [hw] at h
      simp only at h
      rw [dif_neg (by omega), writeOut, dif_pos (by simp)] at h
      simp only [Option.some.injEq, Prod.mk.injEq] at h
      obtain ⟨rfl, rfl⟩ := h
      exact ⟨rfl, h2, rfl⟩

theorem print_counting {u : Uart} {fuel B : Nat} : ∀ {t : List Byte} {f f' : File State} {ok : Bool},
    print (counting u fuel) B t f = some (ok, f') → ok = true ∧
      ∃ out, sent f'.world.log = sent f.world.log ++ out ∧ out ++ f'.buf = f.buf ++ t := by
  intro t
  induction t with
  | nil =>
    intro f f' ok h
    simp only [print, Option.some.injEq, Prod.mk.injEq] at h
    obtain ⟨rfl, rfl⟩ := h
    exact ⟨rfl, [], by simp, by simp⟩
  | cons c cs ih =>
    intro f f' ok h
    simp only [print] at h
    have key : ∀ r, putc (counting u fuel) B c f = some r → r.1 = true ∧
        ∃ out, sent r.2.world.log = sent f.world.log ++ out ∧ out ++ r.2.buf = f.buf ++ [c] := by
      intro r hp
      unfold putc at hp
      split at hp
      · injection hp with hp; subst hp; exact ⟨rfl, [], by simp, by simp⟩
      · split at hp
        · cases hp
        · rename_i f1 hf
          obtain ⟨h1, h2, -⟩ := flush_counting hf
          injection hp with hp
          subst hp
          exact ⟨rfl, f.buf, h2, by simp [h1]⟩
        · rename_i f1 hf
          exact absurd (flush_counting hf).2.2 (by simp)
    cases hp : putc (counting u fuel) B c f with
    | none => rw [hp] at h; cases h
    | some r =>
      obtain ⟨b, f1⟩ := r
      obtain ⟨k1, o1, k2, k3⟩ := key _ hp
      simp only at k1 k2 k3
      subst k1
      rw [hp] at h
      simp only at h
      obtain ⟨j1, o2, j2, j3⟩ := ih h
      refine ⟨j1, o1 ++ o2, by rw [j2, k2, List.append_assoc], ?_⟩
      rw [List.append_assoc, j3, ← List.append_assoc, k3]
      simp

/-- C111: it is the stub's result that loses text, nothing else. With a `_write` that sends the same bytes and returns their number,
every program's text has arrived, whatever the size of the buffer and whatever the program prints, and every call reports
success. -/
theorem C111_counting (u : Uart) (fuel B : Nat) : ∀ (ops : List Op) (f f' : File State) (rs : List Bool),
    run (counting u fuel) B (ops ++ [.flush]) f = some (rs, f') →
    sent f'.world.log = sent f.world.log ++ (f.buf ++ printed ops) ∧ ∀ r ∈ rs, r = true := by
  intro ops
  induction ops with
  | nil =>
    intro f f' rs h
    simp only [List.nil_append, run, step] at h
    cases hf : flush (counting u fuel) f with
    | none => rw [hf] at h; cases h
    | some r =>
      obtain ⟨b, f1⟩ := r
      rw [hf] at h
      obtain ⟨h1, h2, h3⟩ := flush_counting hf
      simp only [Option.some.injEq, Prod.mk.injEq] at h
      obtain ⟨rfl, rfl⟩ := h
      exact ⟨by simp [h2, printed], by simp [h3]⟩
  | cons o os ih =>
    intro f f' rs h
    simp only [List.cons_append, run] at h
    cases hs : step (counting u fuel) B o f with
    | none => rw [hs] at h; cases h
    | some r =>
      obtain ⟨b, f1⟩ := r
      rw [hs] at h
      simp only at h
      cases hr : run (counting u fuel) B (os ++ [.flush]) f1 with
      | none => rw [hr] at h; cases h
      | some r2 =>
        obtain ⟨rs1, f2⟩ := r2
        rw [hr] at h
        simp only [Option.some.injEq, Prod.mk.injEq] at h
        obtain ⟨rfl, rfl⟩ := h
        obtain ⟨h1, h2⟩ := ih _ _ _ hr
        have hstep : b = true ∧ ∃ out, sent f1.world.log = sent f.world.log ++ out ∧ out ++ f1.buf = f.buf ++ printed [o] := by
          cases o with
          | flush =>
            obtain ⟨x1, x2, x3⟩ := flush_counting hs
            exact ⟨x3, f.buf, x2, by simp [x1, printed]⟩
          | print t =>
            obtain ⟨x1, out, x2, x3⟩ := print_counting hs
            exact ⟨x1, out, x2, by simpa [printed] using x3⟩
        obtain ⟨k1, out, k2, k3⟩ := hstep
        refine ⟨?_, ?_⟩
        · rw [h1, k2, List.append_assoc, ← List.append_assoc out, k3, printed_cons o os]
          simp
        · intro r hm
          rcases List.mem_cons.1 hm with rfl | hm
          · exact k1
          · exact h2 r hm

/-- C111 is false of the stub, for every size of the buffer: of a text one byte longer than the buffer the last byte is lost. -/
theorem C111_full_statement_fails (B : Nat) (hB : 0 < B) : ¬ C111_Statement B := by
  intro h
  have hu : Uart.Sends ⟨fun _ => 0x800000#32, fun _ => 0#8⟩ := fun n => ⟨n, Nat.le_refl _, by simp⟩
  obtain ⟨fuel, rs, f, h1, h2⟩ := h _ hu [.print (List.replicate (B + 1) 65#8)] ⟨[], 0⟩
  obtain ⟨out, a1, -, -, a4⟩ := run_stub hB (f := ⟨[], ⟨[], 0⟩⟩) (by simp) h1
  have hbuf := flushed_buf h1
  have hF : ¬ Fits B 0 ([.print (List.replicate (B + 1) 65#8)] ++ [.flush]) := by
    simp [Fits]
  have := a4 hF
  rw [hbuf] at this
  rw [h2] at a1
  have e : out = printed [.print (List.replicate (B + 1) 65#8)] := (List.append_cancel_left a1).symm
  rw [e] at this
  simp [printed] at this

/-- A buffer of 4 bytes: "ab", "cdef", flush, "gh", flush. The text "cdef" does not fit behind "ab", so "ef" is lost; with
flushes in between, all would arrive. -/
example : ∃ rs f, run (stub ⟨fun _ => 0x800000#32, fun _ => 0#8⟩ 9) 4
    [.print [97#8, 98#8], .print [99#8, 100#8, 101#8, 102#8], .flush, .print [103#8, 104#8], .flush] ⟨[], ⟨[], 0⟩⟩ = some (rs, f) ∧
    sent f.world.log = [97#8, 98#8, 99#8, 100#8, 103#8, 104#8] ∧ rs = [true, false, true, true, false] := by
  refine ⟨_, _, by simp [run, step, print, putc, flush, writeOut, stub, write, transmit_string_len, transmit_char, waitFor, cstr]; rfl, ?_, rfl⟩
  simp [sent]

example : Fits 4 0 [.print [97#8, 98#8], .flush, .print [99#8, 100#8, 101#8, 102#8], .flush, .print [103#8, 104#8]] ∧
    ¬ Fits 4 0 [.print [97#8, 98#8], .print [99#8, 100#8, 101#8, 102#8]] := by
  simp [Fits]

end Uavcan.TestSys
