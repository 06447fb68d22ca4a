import Verif.Lemmas.Macros

/-!
# C130: macros can be used like functions
-/

namespace Uavcan.Macros
open Spec

variable {σ : Type}

/-- Everything turned off, and a compiler without extensions. -/
def allOff : Config := ⟨false, false, false, false, false⟩

/-- The property as stated in `properties.jsonl`: a function that compiles with everything turned off compiles with whatever is turned on, and does
the same unless an assertion stops it. -/
def C130_Statement : Prop :=
  ∀ (σ : Type) (src : List (Tok σ)) (l : Stmt σ), IsFunction src l → ∀ cfg : Config, ∃ toks q, preprocess cfg src = some toks ∧ IsFunction toks q ∧
    ∀ m n x, Agrees (does m n q x) (does (meant allOff) n l x)

/-- C130, partial: the exact condition. A function that compiles when macros are read as functions compiles with the macros as they are exactly if arguments
fit what is turned on, and no macro that is a whole statement (an assertion that is turned on; interrupts with GCC) is the last of what is before an `else` or before the `while`
of a `do`. Missing: all other functions. -/
theorem C130_compiles_partial (cfg : Config) (src : List (Tok σ)) (l : Stmt σ) (h : IsFunction src l) :
    (∃ toks q, preprocess cfg src = some toks ∧ IsFunction toks q) ↔ AllUses (ArgsFit cfg) l ∧ WellPlaced cfg l := by
  have hp := preprocess_uses cfg h
  constructor
  · rintro ⟨toks, q, h1, h2⟩
    rw [h1] at hp
    have hu : AllUses (ArgsFit cfg) l := (hp.1 rfl).1
    refine ⟨hu, Classical.byContradiction fun hw => ?_⟩
    rw [preprocess_after cfg src toks h1] at h2
    obtain ⟨_, _, e⟩ := misplaced_stuck cfg h hu hw _ _ h2
    cases e
  · rintro ⟨hu, hw⟩
    obtain ⟨toks, ht⟩ := Option.isSome_iff_exists.1 (hp.2 ⟨hu, rfl⟩)
    cases h with
    | block hl =>
      obtain ⟨q, _, b, _⟩ := placed_parses cfg hl hu hw
      have hn : ¬ EndsWhole cfg l := by cases hl <;> exact fun h => h
      refine ⟨toks, q, ht, ?_⟩
      rw [preprocess_after cfg _ toks ht]
      exact .block (b hn)

/-- C130, partial: and then it does what is meant. -/
theorem C130_does_partial (cfg : Config) (src : List (Tok σ)) (l : Stmt σ) (h : IsFunction src l) (toks : List (Tok σ)) (q : Stmt σ)
    (ht : preprocess cfg src = some toks) (hq : IsFunction toks q) : ∀ m n x, does m n q x = does (meant cfg) n l x := by
  obtain ⟨hu, hw⟩ := (C130_compiles_partial cfg src l h).1 ⟨toks, q, ht, hq⟩
  rw [preprocess_after cfg src toks ht] at hq
  obtain ⟨q', a, b, _⟩ := placed_parses cfg h hu hw
  obtain ⟨e, _⟩ := parses_unique (b fun h => h) hq
  cases e
  exact a

/-- C130, partial: what is turned on changes nothing, if asserted conditions only look: either an assertion stopped the program, which until then printed what it would have
printed, or it came to the same end and printed the same (besides traces). -/
theorem C130_same_partial (cfg : Config) (src : List (Tok σ)) (l : Stmt σ) (h : IsFunction src l) (hp : AllUses PureUse l) (toks : List (Tok σ)) (q : Stmt σ)
    (ht : preprocess cfg src = some toks) (hq : IsFunction toks q) (m : Use σ → Act σ) (n : Nat) (x : σ) :
    ((does m n q x).2 = .stopped ∧ ∃ more, own (does (meant allOff) n l x).1 = own (does m n q x).1 ++ more) ∨
    ((does m n q x).2 = (does (meant allOff) n l x).2 ∧ own (does m n q x).1 = own (does (meant allOff) n l x).1) := by
  rw [C130_does_partial cfg src l h toks q ht hq]
  refine does_agree n l (AllUses_mono (fun u hu x => ?_) l hp) x
  cases u with
  | assert c k =>
    have hc : (c x).2 = x := hu x
    simp only [meant, allOff]
    by_cases h1 : cfg.assertOn = true ∧ cfg.ndebug = false
    · rw [if_pos h1]
      cases hv : (c x).1 with
      | true => exact .inr ⟨by simp [hc], by simp⟩
      | false => exact .inl ⟨by simp, [], by simp [own]⟩
    · rw [if_neg h1]; exact .inr ⟨by simp, by simp⟩
  | trace a b t => exact .inr ⟨rfl, by simp only [meant, allOff]; cases cfg.traceOn <;> simp [own]⟩
  | tracef a b t => exact .inr ⟨rfl, by simp only [meant, allOff]; cases cfg.traceOn <;> simp [own]⟩
  | devAssert c =>
    have hc : (c x).2 = x := hu x
    simp only [meant, allOff]
    cases cfg.devDetect with
    | true =>
      cases hv : (c x).1 with
      | true => exact .inr ⟨by simp [hc], by simp⟩
      | false => exact .inl ⟨by simp, [], by simp [own]⟩
    | false => exact .refl _
  | interrupts f => exact .refl _

/-- C130, partial: with everything turned off and without extensions all functions compile. -/
theorem C130_off_partial (src : List (Tok σ)) (l : Stmt σ) (h : IsFunction src l) : ∃ toks q, preprocess allOff src = some toks ∧ IsFunction toks q := by
  refine (C130_compiles_partial allOff src l h).2 ⟨?_, ?_⟩
  · have : ∀ l : Stmt σ, AllUses (ArgsFit allOff) l := by
      intro l
      induction l with
      | use u => cases u <;> first | exact trivial | exact fun h => by cases h
      | empty => exact trivial
      | expr e => exact trivial
      | nil => exact trivial
      | ite c s t ih1 ih2 => exact ⟨ih1, ih2⟩
      | cons s l ih1 ih2 => exact ⟨ih1, ih2⟩
      | ifs c s ih => exact ih
      | loop c s ih => exact ih
      | dos s c ih => exact ih
      | block l ih => exact ih
    exact this l
  · have key : ∀ l : Stmt σ, WellPlaced allOff l ∧ ¬ EndsWhole allOff l := by
      intro l
      induction l with
      | use u => cases u <;> exact ⟨trivial, fun h => by cases h⟩
      | empty => exact ⟨trivial, fun h => h⟩
      | expr e => exact ⟨trivial, fun h => h⟩
      | nil => exact ⟨trivial, fun h => h⟩
      | ite c s t ih1 ih2 => exact ⟨⟨ih1.1, ih1.2, ih2.1⟩, ih2.2⟩
      | cons s l ih1 ih2 => exact ⟨⟨ih1.1, ih2.1⟩, fun h => h⟩
      | ifs c s ih => exact ih
      | loop c s ih => exact ih
      | dos s c ih => exact ⟨ih, fun h => h⟩
      | block l ih => exact ⟨ih.1, fun h => h⟩
    exact (key l).1

/-- `{ if (c) LIBUAVCAN_ASSERT(d); else ; }` -/
def beforeElse (c d : Cond σ) : List (Tok σ) := [.lbrace, .ifT c, .use (.assert d 0), .semi, .elseT, .semi, .rbrace]

theorem beforeElse_function (c d : Cond σ) : IsFunction (beforeElse c d) (.cons (.ite c (.use (.assert d 0)) .empty) .nil) :=
  .block (.cons (.ite (.use _ _) (.empty _)) (.nil _))

/-- The full statement fails: an assertion before an `else` does not compile when it is turned on, nor one with a comma; one that changes something changes what the
program does; `LIBUAVCAN_TRACEF` without a value to print does not compile; with GCC `ENABLE_INTERRUPTS` does not compile before an `else`. -/
theorem C130_full_statement_fails :
    ¬ C130_Statement ∧
    (∀ (cfg : Config) (c d : Cond σ), (∃ toks q, preprocess cfg (beforeElse c d) = some toks ∧ IsFunction toks q) ↔ cfg.assertOn = false) ∧
    (∀ (cfg : Config) (d : Cond σ), (preprocess cfg [.lbrace, .use (.assert d 1), .semi, .rbrace]).isSome = true ↔ cfg.assertOn = false) ∧
    (∀ (cfg : Config) (line : String), (preprocess (σ := σ) cfg [.lbrace, .use (.tracef 2 true line), .semi, .rbrace]).isSome = true ↔ cfg.traceOn = false) ∧
    (∀ (cfg : Config) (c : Cond σ) (f : σ → σ), (∃ toks q, preprocess cfg [.lbrace, .ifT c, .use (.interrupts f), .semi, .elseT, .semi, .rbrace] = some toks ∧ IsFunction toks q) ↔
      cfg.gnu = false) ∧
    (does (meant ⟨true, false, false, false, true⟩) 0 (.use (.assert (fun n : Nat => (true, n + 1)) 0)) 0).2 = .ok 1 ∧
    (does (meant allOff) 0 (.use (.assert (fun n : Nat => (true, n + 1)) 0)) 0).2 = .ok 0 := by
  have h1 : ∀ (σ : Type) (cfg : Config) (c d : Cond σ), (∃ toks q, preprocess cfg (beforeElse c d) = some toks ∧ IsFunction toks q) ↔ cfg.assertOn = false := by
    intro σ cfg c d
    rw [C130_compiles_partial cfg _ _ (beforeElse_function c d)]
    simp [AllUses, ArgsFit, WellPlaced, EndsWhole, Whole]
  refine ⟨fun h => ?_, h1 σ, fun cfg d => ?_, fun cfg line => ?_, fun cfg c f => ?_, rfl, rfl⟩
  · obtain ⟨toks, q, a, b, _⟩ := h Unit _ _ (beforeElse_function (fun s => (true, s)) (fun s => (true, s))) ⟨true, false, false, false, false⟩
    have := (h1 Unit ⟨true, false, false, false, false⟩ _ _).1 ⟨toks, q, a, b⟩
    cases this
  · cases h : cfg.assertOn <;> simp [preprocess, Use.expand, h]
  · cases h : cfg.traceOn <;> simp [preprocess, Use.expand, h]
  · have hf : IsFunction [.lbrace, .ifT c, .use (.interrupts f), .semi, .elseT, .semi, .rbrace] (.cons (.ite c (.use (.interrupts f)) .empty) .nil) :=
      .block (.cons (.ite (.use _ _) (.empty _)) (.nil _))
    rw [C130_compiles_partial cfg _ _ hf]
    simp [AllUses, ArgsFit, WellPlaced, EndsWhole, Whole]

/-- A loop with an assertion in braces before an `else`, and a trace: compiles with everything turned on. -/
example (c d : Cond σ) : ∃ l, IsFunction [.lbrace, .whileT c, .ifT c, .lbrace, .use (.assert d 0), .semi, .rbrace, .elseT, .use (.tracef 3 true "x"), .semi, .rbrace] l ∧
    AllUses (ArgsFit ⟨true, true, false, true, true⟩) l ∧ WellPlaced ⟨true, true, false, true, true⟩ l :=
  ⟨.cons (.loop c (.ite c (.block (.cons (.use (.assert d 0)) .nil)) (.use (.tracef 3 true "x")))) .nil,
    .block (.cons (.loop (.ite (.block (.cons (.use _ _) (.nil _))) (.use _ _))) (.nil _)), by simp [AllUses, ArgsFit], by simp [WellPlaced, EndsWhole]⟩

end Uavcan.Macros
