import Verif.Spec.Macros

/-! # Lemmas for macros that look like functions -/

namespace Uavcan.Macros
open Spec

variable {σ : Type}

/-- The grammar is unambiguous. -/
theorem parses_unique {b : Bool} {ts r r' : List (Tok σ)} {s s' : Stmt σ} (h : Parses b ts s r) (h' : Parses b ts s' r') : s = s' ∧ r = r' := by
  induction h generalizing s' r' with
  | empty ts => cases h'; exact ⟨rfl, rfl⟩
  | expr e ts => cases h'; exact ⟨rfl, rfl⟩
  | use u ts => cases h'; exact ⟨rfl, rfl⟩
  | ite _ _ ih1 ih2 =>
    cases h' with
    | ite a1 a2 =>
      obtain ⟨e1, e2⟩ := ih1 a1
      cases e1; cases e2
      obtain ⟨e1, e2⟩ := ih2 a2
      cases e1; cases e2
      exact ⟨rfl, rfl⟩
    | ifs a1 a2 =>
      obtain ⟨_, e2⟩ := ih1 a1
      exact absurd e2.symm (a2 _)
  | ifs _ hn ih1 =>
    cases h' with
    | ite a1 a2 =>
      obtain ⟨_, e2⟩ := ih1 a1
      exact absurd e2 (hn _)
    | ifs a1 a2 =>
      obtain ⟨e1, e2⟩ := ih1 a1
      cases e1; cases e2
      exact ⟨rfl, rfl⟩
  | loop _ ih =>
    cases h' with
    | loop a1 =>
      obtain ⟨e1, e2⟩ := ih a1
      cases e1; cases e2
      exact ⟨rfl, rfl⟩
  | dos _ ih =>
    cases h' with
    | dos a1 =>
      obtain ⟨e1, e2⟩ := ih a1
      cases e1; cases e2
      exact ⟨rfl, rfl⟩
  | block _ ih =>
    cases h' with
    | block a1 =>
      obtain ⟨e1, e2⟩ := ih a1
      cases e1; cases e2
      exact ⟨rfl, rfl⟩
  | nil ts =>
    cases h' with
    | nil => exact ⟨rfl, rfl⟩
    | cons a1 _ => cases a1
  | cons h1 _ ih1 ih2 =>
    cases h' with
    | nil => cases h1
    | cons a1 a2 =>
      obtain ⟨e1, e2⟩ := ih1 a1
      cases e1; cases e2
      obtain ⟨e1, e2⟩ := ih2 a2
      cases e1; cases e2
      exact ⟨rfl, rfl⟩

/-- The text after preprocessing, with something harmless where that fails. -/
def after (cfg : Config) : List (Tok σ) → List (Tok σ)
  | [] => []
  | .use u :: ts => (u.expand cfg).getD [.semi] ++ after cfg ts
  | t :: ts => t :: after cfg ts

theorem preprocess_after (cfg : Config) (ts xs : List (Tok σ)) (h : preprocess cfg ts = some xs) : xs = after cfg ts := by
  induction ts generalizing xs with
  | nil => cases h; rfl
  | cons t ts ih =>
    cases t with
    | use u =>
      simp only [preprocess, bind, Option.bind, pure] at h
      cases hu : u.expand cfg with
      | none => rw [hu] at h; cases h
      | some b =>
        rw [hu] at h
        dsimp only at h
        cases hr : preprocess cfg ts with
        | none => rw [hr] at h; cases h
        | some r =>
          rw [hr] at h
          cases h
          rw [ih r hr]
          simp [after, hu]
    | _ =>
      simp only [preprocess, bind, Option.bind, pure] at h
      cases hr : preprocess cfg ts with
      | none => rw [hr] at h; cases h
      | some r => rw [hr] at h; cases h; rw [ih r hr]; rfl

theorem expand_some (cfg : Config) (u : Use σ) : (u.expand cfg).isSome = true ↔ ArgsFit cfg u := by
  cases u <;> simp only [Use.expand, ArgsFit]
  case assert c n => cases cfg.assertOn <;> by_cases h : n = 0 <;> simp [h]
  case trace a l t => cases cfg.traceOn <;> by_cases h : a = 2 <;> cases l <;> simp [h]
  case tracef a l t => cases cfg.traceOn <;> by_cases h : 3 ≤ a <;> cases l <;> simp [h]
  case devAssert => simp
  case interrupts => cases cfg.gnu <;> simp

theorem preprocess_cons (cfg : Config) (t : Tok σ) (ts : List (Tok σ)) :
    (preprocess cfg (t :: ts)).isSome = true ↔ (∀ u, t = .use u → ArgsFit cfg u) ∧ (preprocess cfg ts).isSome = true := by
  cases t with
  | use u =>
    simp only [preprocess, bind, Option.bind, pure]
    have := expand_some cfg u
    cases hu : u.expand cfg with
    | none =>
      rw [hu] at this
      have hno : ¬ ArgsFit cfg u := fun h => by have := this.2 h; cases this
      simp [hno]
    | some b =>
      rw [hu] at this
      have hyes : ArgsFit cfg u := this.1 rfl
      cases preprocess cfg ts <;> simp [hyes]
  | _ =>
    simp only [preprocess, bind, Option.bind, pure]
    cases preprocess cfg ts <;> simp

theorem preprocess_uses (cfg : Config) {b : Bool} {ts r : List (Tok σ)} {s : Stmt σ} (h : Parses b ts s r) :
    (preprocess cfg ts).isSome = true ↔ AllUses (ArgsFit cfg) s ∧ (preprocess cfg r).isSome = true := by
  induction h with
  | empty ts => rw [preprocess_cons]; simp [AllUses]
  | expr e ts => rw [preprocess_cons, preprocess_cons]; simp [AllUses]
  | use u ts => rw [preprocess_cons, preprocess_cons]; simp [AllUses]
  | ite _ _ ih1 ih2 => rw [preprocess_cons, ih1, preprocess_cons, ih2]; simp [AllUses, and_assoc]
  | ifs _ _ ih1 => rw [preprocess_cons, ih1]; simp [AllUses]
  | loop _ ih1 => rw [preprocess_cons, ih1]; simp [AllUses]
  | dos _ ih1 => rw [preprocess_cons, ih1, preprocess_cons, preprocess_cons]; simp [AllUses]
  | block _ ih1 => rw [preprocess_cons, ih1]; simp [AllUses]
  | nil ts => rw [preprocess_cons]; simp [AllUses]
  | cons _ _ ih1 ih2 => rw [ih1, ih2]; simp [AllUses, and_assoc]

theorem andThen_ok (r : List Out × End σ) : andThen r (fun x => ([], .ok x)) = r := by
  obtain ⟨o, e⟩ := r
  cases e <;> simp [andThen]

theorem ok_andThen (x : σ) (f : Act σ) : andThen ([], .ok x) f = f x := by simp [andThen]

/-- A use read as a function and the text it becomes. -/
theorem use_parses (cfg : Config) (u : Use σ) (hu : ArgsFit cfg u) (ts : List (Tok σ)) :
    ∃ q, (∀ m n x, does m n q x = meant cfg u x) ∧ (¬ Whole cfg u → Parses false (after cfg (.use u :: .semi :: ts)) q (after cfg ts)) ∧
      (Whole cfg u → Parses false (after cfg (.use u :: .semi :: ts)) q (.semi :: after cfg ts)) := by
  have hx : after cfg (.use u :: .semi :: ts) = (u.expand cfg).getD [.semi] ++ (.semi :: after cfg ts) := rfl
  rw [hx]
  cases u with
  | assert c n =>
    simp only [Use.expand, Whole, ArgsFit] at hu ⊢
    cases ha : cfg.assertOn with
    | false =>
      exact ⟨.expr nop, fun m n x => by simp [does, nop, meant, ha], fun _ => .expr _ _, fun h => by cases h⟩
    | true =>
      have hn := hu ha
      subst hn
      refine ⟨.block (.cons (.expr (if cfg.ndebug then nop else check c)) .nil), fun m n x => ?_, fun h => absurd rfl h, fun _ => ?_⟩
      · simp only [does, andThen_ok, meant, ha]
        cases hn : cfg.ndebug with
        | true => simp [nop]
        | false =>
          simp only [check, Bool.false_eq_true, if_false, and_self, if_true]
          rcases hc : c x with ⟨v, y⟩
          cases v <;> simp
      · exact .block (.cons (.expr _ _) (.nil _))
  | trace a l t =>
    simp only [Use.expand, Whole, ArgsFit] at hu ⊢
    cases ha : cfg.traceOn with
    | false => exact ⟨.expr nop, fun m n x => by simp [does, nop, meant, ha], fun _ => .expr _ _, fun h => h.elim⟩
    | true =>
      have hn := hu ha
      simp only [hn, and_self, if_true]
      exact ⟨.expr (print t), fun m n x => by simp [does, print, meant, ha], fun _ => .expr _ _, fun h => h.elim⟩
  | tracef a l t =>
    simp only [Use.expand, Whole, ArgsFit] at hu ⊢
    cases ha : cfg.traceOn with
    | false => exact ⟨.expr nop, fun m n x => by simp [does, nop, meant, ha], fun _ => .expr _ _, fun h => h.elim⟩
    | true =>
      have hn := hu ha
      simp only [hn, and_self, if_true]
      exact ⟨.expr (print t), fun m n x => by simp [does, print, meant, ha], fun _ => .expr _ _, fun h => h.elim⟩
  | devAssert c =>
    refine ⟨.expr (if cfg.devDetect then check c else nop), fun m n x => ?_, fun _ => .expr _ _, fun h => h.elim⟩
    simp only [does, meant]
    cases hn : cfg.devDetect with
    | false => simp [nop]
    | true =>
      simp only [check, if_true]
      rcases hc : c x with ⟨v, y⟩
      cases v <;> simp
  | interrupts f =>
    simp only [Use.expand, Whole]
    cases hg : cfg.gnu with
    | false => exact ⟨.expr _, fun m n x => rfl, fun _ => .expr _ _, fun h => by cases h⟩
    | true => exact ⟨.expr _, fun m n x => rfl, fun h => absurd rfl h, fun _ => .expr _ _⟩

theorem after_else (cfg : Config) (r : List (Tok σ)) (h : ∀ r', r ≠ .elseT :: r') : ∀ r', after cfg r ≠ .elseT :: r' := by
  intro r' e
  cases r with
  | nil => cases e
  | cons t ts =>
    cases t with
    | elseT => exact h ts rfl
    | use u =>
      cases u with
      | assert c n =>
        simp only [after, Use.expand] at e
        repeat' split at e
        all_goals cases e
      | trace a l t =>
        simp only [after, Use.expand] at e
        repeat' split at e
        all_goals cases e
      | tracef a l t =>
        simp only [after, Use.expand] at e
        repeat' split at e
        all_goals cases e
      | devAssert c => cases e
      | interrupts f =>
        simp only [after, Use.expand] at e
        repeat' split at e
        all_goals cases e
    | _ => cases e

/-- A text that is well placed becomes a text that does what was meant. -/
theorem placed_parses (cfg : Config) {b : Bool} {ts r : List (Tok σ)} {s : Stmt σ} (h : Parses b ts s r) (hu : AllUses (ArgsFit cfg) s)
    (hw : WellPlaced cfg s) :
    ∃ q, (∀ m n x, does m n q x = does (meant cfg) n s x) ∧ (¬ EndsWhole cfg s → Parses b (after cfg ts) q (after cfg r)) ∧
      (EndsWhole cfg s → Parses b (after cfg ts) q (.semi :: after cfg r)) := by
  induction h with
  | empty ts => exact ⟨.empty, fun _ _ _ => rfl, fun _ => .empty _, fun h => h.elim⟩
  | expr e ts => exact ⟨.expr e, fun _ _ _ => rfl, fun _ => .expr _ _, fun h => h.elim⟩
  | use u ts => exact use_parses cfg u hu ts
  | @ite c ts s ts' t r _ _ ih1 ih2 =>
    obtain ⟨q1, a1, b1, _⟩ := ih1 hu.1 hw.1
    obtain ⟨q2, a2, b2, c2⟩ := ih2 hu.2 hw.2.2
    refine ⟨.ite c q1 q2, fun m n x => ?_, fun h => .ite (b1 hw.2.1) (b2 h), fun h => .ite (b1 hw.2.1) (c2 h)⟩
    simp only [does, a1, a2]
  | @ifs c ts s r _ hn ih =>
    obtain ⟨q1, a1, b1, c1⟩ := ih hu hw
    refine ⟨.ifs c q1, fun m n x => ?_, fun h => .ifs (b1 h) (after_else cfg r hn), fun h => .ifs (c1 h) fun r' e => by cases e⟩
    simp only [does, a1]
  | @loop c ts s r _ ih =>
    obtain ⟨q1, a1, b1, c1⟩ := ih hu hw
    refine ⟨.loop c q1, fun m n x => ?_, fun h => .loop (b1 h), fun h => .loop (c1 h)⟩
    have : does m n q1 = does (meant cfg) n s := funext (a1 m n)
    simp only [does, this]
  | @dos ts s c r _ ih =>
    obtain ⟨q1, a1, b1, c1⟩ := ih hu hw.1
    refine ⟨.dos q1 c, fun m n x => ?_, fun _ => .dos (b1 hw.2), fun h => h.elim⟩
    have : does m n q1 = does (meant cfg) n s := funext (a1 m n)
    simp only [does, this]
  | block _ ih =>
    obtain ⟨q1, a1, b1, c1⟩ := ih hu hw
    rename_i l _ hl
    refine ⟨.block q1, fun m n x => a1 m n x, fun _ => .block (b1 ?_), fun h => h.elim⟩
    cases hl <;> exact fun h => h
  | nil ts => exact ⟨.nil, fun _ _ _ => rfl, fun _ => .nil _, fun h => h.elim⟩
  | @cons ts s r l r' _ hl ih1 ih2 =>
    obtain ⟨q1, a1, b1, c1⟩ := ih1 hu.1 hw.1
    obtain ⟨q2, a2, b2, _⟩ := ih2 hu.2 hw.2
    have hn : ¬ EndsWhole cfg l := by cases hl <;> exact fun h => h
    have e2 : ∀ m n, does m n q2 = does (meant cfg) n l := fun m n => funext (a2 m n)
    by_cases he : EndsWhole cfg s
    · refine ⟨.cons q1 (.cons .empty q2), fun m n x => ?_, fun _ => .cons (c1 he) (.cons (.empty _) (b2 hn)), fun h => h.elim⟩
      simp only [does, a1, e2, ok_andThen]
    · refine ⟨.cons q1 q2, fun m n x => ?_, fun _ => .cons (b1 he) (b2 hn), fun h => h.elim⟩
      simp only [does, a1, e2]

theorem after_rbrace (cfg : Config) {ts r : List (Tok σ)} {s : Stmt σ} (h : Parses false ts s r) : ∀ r', after cfg ts ≠ .rbrace :: r' := by
  intro r' e
  cases h with
  | use u =>
    cases u with
    | assert c n =>
      simp only [after, Use.expand] at e
      repeat' split at e
      all_goals cases e
    | trace a l t =>
      simp only [after, Use.expand] at e
      repeat' split at e
      all_goals cases e
    | tracef a l t =>
      simp only [after, Use.expand] at e
      repeat' split at e
      all_goals cases e
    | devAssert c => cases e
    | interrupts f =>
      simp only [after, Use.expand] at e
      repeat' split at e
      all_goals cases e
  | _ => cases e

/-- A text that is not: the reading gets stuck at an `else`. -/
theorem misplaced_stuck (cfg : Config) {b : Bool} {ts r : List (Tok σ)} {s : Stmt σ} (h : Parses b ts s r) (hu : AllUses (ArgsFit cfg) s)
    (hw : ¬ WellPlaced cfg s) : ∀ q r', Parses b (after cfg ts) q r' → b = false ∧ ∃ r'', r' = .semi :: .elseT :: r'' := by
  induction h with
  | empty ts => exact absurd trivial hw
  | expr e ts => exact absurd trivial hw
  | use u ts => exact absurd trivial hw
  | @ite c ts s ts' t r h1 h2 ih1 ih2 =>
    intro q r' hp
    have hp : Parses false (.ifT c :: after cfg ts) q r' := hp
    by_cases w1 : WellPlaced cfg s
    · obtain ⟨q1, _, b1, c1⟩ := placed_parses cfg h1 hu.1 w1
      by_cases e1 : EndsWhole cfg s
      · cases hp with
        | ite a1 a2 => obtain ⟨_, e⟩ := parses_unique (c1 e1) a1; cases e
        | ifs a1 a2 => obtain ⟨_, e⟩ := parses_unique (c1 e1) a1; cases e; exact ⟨rfl, _, rfl⟩
      · cases hp with
        | ite a1 a2 =>
          obtain ⟨_, e⟩ := parses_unique (b1 e1) a1
          cases e
          exact ih2 hu.2 (fun w2 => hw ⟨w1, e1, w2⟩) _ _ a2
        | ifs a1 a2 =>
          obtain ⟨_, e⟩ := parses_unique (b1 e1) a1
          exact absurd e.symm (a2 _)
    · cases hp with
      | ite a1 a2 => obtain ⟨_, r'', e⟩ := ih1 hu.1 w1 _ _ a1; cases e
      | ifs a1 a2 => exact ih1 hu.1 w1 _ _ a1
  | @ifs c ts s r h1 hn ih =>
    intro q r' hp
    have hp : Parses false (.ifT c :: after cfg ts) q r' := hp
    cases hp with
    | ite a1 a2 => obtain ⟨_, r'', e⟩ := ih hu hw _ _ a1; cases e
    | ifs a1 a2 => exact ih hu hw _ _ a1
  | @loop c ts s r h1 ih =>
    intro q r' hp
    have hp : Parses false (.whileT c :: after cfg ts) q r' := hp
    cases hp with
    | loop a1 => exact ih hu hw _ _ a1
  | @dos ts s c r h1 ih =>
    intro q r' hp
    have hp : Parses false (.doT :: after cfg ts) q r' := hp
    cases hp with
    | dos a1 =>
      by_cases w1 : WellPlaced cfg s
      · obtain ⟨q1, _, b1, c1⟩ := placed_parses cfg h1 hu w1
        by_cases e1 : EndsWhole cfg s
        · obtain ⟨_, e⟩ := parses_unique (c1 e1) a1; cases e
        · exact absurd ⟨w1, e1⟩ hw
      · obtain ⟨_, r'', e⟩ := ih hu w1 _ _ a1; cases e
  | @block ts l r h1 ih =>
    intro q r' hp
    have hp : Parses false (.lbrace :: after cfg ts) q r' := hp
    cases hp with
    | block a1 => obtain ⟨e, _⟩ := ih hu hw _ _ a1; cases e
  | nil ts => exact absurd trivial hw
  | @cons ts s r l r' h1 h2 ih1 ih2 =>
    intro q x hp
    exfalso
    generalize hy : after cfg ts = ys at hp
    cases hp with
    | nil => exact after_rbrace cfg h1 _ hy
    | cons a1 a2 =>
      subst hy
      by_cases w1 : WellPlaced cfg s
      · obtain ⟨q1, _, b1, c1⟩ := placed_parses cfg h1 hu.1 w1
        have w2 : ¬ WellPlaced cfg l := fun w2 => hw ⟨w1, w2⟩
        by_cases e1 : EndsWhole cfg s
        · obtain ⟨_, e⟩ := parses_unique (c1 e1) a1
          cases e
          cases a2 with
          | cons a3 a4 =>
            cases a3
            obtain ⟨e, _⟩ := ih2 hu.2 w2 _ _ a4
            cases e
        · obtain ⟨_, e⟩ := parses_unique (b1 e1) a1
          cases e
          obtain ⟨e, _⟩ := ih2 hu.2 w2 _ _ a2
          cases e
      · obtain ⟨_, r'', e⟩ := ih1 hu.1 w1 _ _ a1
        cases e
        cases a2 with
        | cons a3 a4 =>
          cases a3
          cases a4 with
          | cons a5 _ => cases a5

theorem own_append (a b : List Out) : own (a ++ b) = own a ++ own b := List.filter_append ..

/-- One run stopped, after printing a part; or both came to the same end. -/
def Agrees (r r' : List Out × End σ) : Prop := (r.2 = .stopped ∧ ∃ more, own r'.1 = own r.1 ++ more) ∨ (r.2 = r'.2 ∧ own r.1 = own r'.1)

theorem Agrees.refl (r : List Out × End σ) : Agrees r r := .inr ⟨rfl, rfl⟩

theorem Agrees.andThen {r r' : List Out × End σ} {f f' : Act σ} (h : Agrees r r') (hf : ∀ x, Agrees (f x) (f' x)) :
    Agrees (Spec.andThen r f) (Spec.andThen r' f') := by
  obtain ⟨o, e⟩ := r
  obtain ⟨o', e'⟩ := r'
  rcases h with ⟨h1, more, h2⟩ | ⟨h1, h2⟩
  · dsimp only at h1 h2
    subst h1
    cases e' with
    | ok s => exact .inl ⟨rfl, more ++ own (f' s).1, by simp [Spec.andThen, own_append, h2]⟩
    | stopped => exact .inl ⟨rfl, more, h2⟩
    | more => exact .inl ⟨rfl, more, h2⟩
  · dsimp only at h1 h2
    subst h1
    cases e with
    | ok s =>
      rcases hf s with ⟨a1, more, a2⟩ | ⟨a1, a2⟩
      · exact .inl ⟨a1, more, by simp [Spec.andThen, own_append, h2, a2]⟩
      · exact .inr ⟨a1, by simp [Spec.andThen, own_append, h2, a2]⟩
    | stopped => exact .inr ⟨rfl, h2⟩
    | more => exact .inr ⟨rfl, h2⟩

theorem rounds_agree (c : Cond σ) {f f' : Act σ} (h : ∀ x, Agrees (f x) (f' x)) (n : Nat) : ∀ x, Agrees (rounds c f n x) (rounds c f' n x) := by
  induction n with
  | zero => exact fun x => .refl _
  | succ n ih =>
    intro x
    simp only [rounds]
    split
    · exact (h _).andThen ih
    · exact .refl _

theorem does_agree {m m' : Use σ → Act σ} (n : Nat) (s : Stmt σ) (h : AllUses (fun u => ∀ x, Agrees (m u x) (m' u x)) s) :
    ∀ x, Agrees (does m n s x) (does m' n s x) := by
  induction s with
  | empty => exact fun x => .refl _
  | expr e => exact fun x => .refl _
  | use u => exact h
  | ite c s t ih1 ih2 =>
    intro x
    simp only [does]
    split
    · exact ih1 h.1 _
    · exact ih2 h.2 _
  | ifs c s ih =>
    intro x
    simp only [does]
    split
    · exact ih h _
    · exact .refl _
  | loop c s ih => exact rounds_agree c (ih h) n
  | dos s c ih => exact fun x => (ih h x).andThen (rounds_agree c (ih h) n)
  | block l ih => exact ih h
  | nil => exact fun x => .refl _
  | cons s l ih1 ih2 => exact fun x => (ih1 h.1 x).andThen (ih2 h.2)

theorem AllUses_mono {P Q : Use σ → Prop} (h : ∀ u, P u → Q u) (s : Stmt σ) (hs : AllUses P s) : AllUses Q s := by
  induction s with
  | empty => exact trivial
  | expr e => exact trivial
  | use u => exact h u hs
  | ite c s t ih1 ih2 => exact ⟨ih1 hs.1, ih2 hs.2⟩
  | ifs c s ih => exact ih hs
  | loop c s ih => exact ih hs
  | dos s c ih => exact ih hs
  | block l ih => exact ih hs
  | nil => exact trivial
  | cons s l ih1 ih2 => exact ⟨ih1 hs.1, ih2 hs.2⟩

end Uavcan.Macros
