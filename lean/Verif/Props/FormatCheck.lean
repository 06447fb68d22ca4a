import Verif.Model.FormatCheck

/-!
# C55: the format check
-/

namespace Uavcan.FormatCheck

/-- What the formatter documents about its output: a `replacements` element with `replacement` elements, and white space
(and the position of the cursor, if asked for). -/
inductive Reports : List Node → Nat → Prop where
  | done : Reports [] 0
  | replacement (cs rest k) : Reports rest k → Reports (.element "replacement" cs :: rest) (k + 1)
  | blank (rest k) : Reports rest k → Reports (.text :: rest) k
  | cursor (cs rest k) : Reports rest k → Reports (.element "cursor" cs :: rest) k

/-- The formatter says there are `k` replacements to be made. -/
def Answer.Proposes (a : Answer) (k : Nat) : Prop :=
  ∃ children, a = .document [.element "replacements" children] ∧ Reports children k

/-- The property as stated in `properties.jsonl`. A file for which there is no answer in the documented format is not known to
be formatted. -/
def C55_Statement : Prop :=
  ∀ answers : List Answer, exitStatus answers = 0 ↔ answers ≠ [] ∧ ∀ a ∈ answers, a.Proposes 0

theorem countInner_reports {cs : List Node} {k : Nat} (h : Reports cs k) : ∀ n, countInner cs n = (n + k, false) := by
  induction h with
  | done => intro n; rfl
  | replacement cs rest k _ ih => intro n; simp only [countInner, Node.nodeName, if_true, ih]; congr 1; omega
  | blank rest k _ ih => intro n; simp only [countInner, Node.nodeName]; exact ih n
  | cursor cs rest k _ ih => intro n; simp only [countInner, Node.nodeName]; exact ih n

theorem count_proposes {a : Answer} {k : Nat} (h : a.Proposes k) : countReplacements a = k := by
  obtain ⟨cs, rfl, hr⟩ := h
  simp only [countReplacements, countOuter, Node.nodeName, if_true, Node.childNodes, countInner_reports hr, Nat.zero_add]

theorem reports_unique {cs : List Node} {k l : Nat} (h : Reports cs k) (h' : Reports cs l) : k = l := by
  have h1 := countInner_reports h 0
  rw [countInner_reports h' 0] at h1
  injection h1 with h1 _
  omega

open Classical in
/-- The value of the loop in general. -/
theorem runFiles_eq (as : List Answer) : ∀ r, runFiles as r =
    if (∃ a ∈ as, a = .failed) then none
    else if (∃ a ∈ as, 0 < countReplacements a) then some (-1) else some r := by
  induction as with
  | nil => intro r; simp [runFiles]
  | cons a as ih =>
    intro r
    by_cases hf : a = .failed
    · subst hf; simp [runFiles]
    · have hstep : runFiles (a :: as) r = runFiles as (if countReplacements a > 0 then -1 else r) := by
        cases a with
        | failed => exact absurd rfl hf
        | malformed => rfl
        | document ns => rfl
      have e1 : (∃ b ∈ a :: as, b = Answer.failed) ↔ ∃ b ∈ as, b = Answer.failed := by simp [Ne.symm hf]
      have e2 : (∃ b ∈ a :: as, 0 < countReplacements b) ↔ 0 < countReplacements a ∨ ∃ b ∈ as, 0 < countReplacements b := by
        simp
      rw [hstep, ih]
      simp only [e1, e2]
      by_cases h5 : 0 < countReplacements a
      · simp [h5]
      · simp [h5]

theorem exitStatus_zero (as : List Answer) : exitStatus as = 0 ↔
    as ≠ [] ∧ ∀ a ∈ as, a ≠ .failed ∧ countReplacements a = 0 := by
  unfold exitStatus run
  cases as with
  | nil => simp
  | cons b bs =>
    rw [if_neg (by simp), runFiles_eq]
    by_cases h1 : ∃ a ∈ b :: bs, a = Answer.failed
    · rw [if_pos h1]
      obtain ⟨a, ha, he⟩ := h1
      constructor
      · intro h; exact absurd h (by decide)
      · rintro ⟨_, h⟩; exact absurd he (h a ha).1
    · rw [if_neg h1]
      by_cases h2 : ∃ a ∈ b :: bs, 0 < countReplacements a
      · rw [if_pos h2]
        obtain ⟨a, ha, he⟩ := h2
        constructor
        · intro h; exact absurd h (by decide)
        · rintro ⟨_, h⟩
          have := (h a ha).2
          omega
      · rw [if_neg h2]
        constructor
        · intro _
          refine ⟨by simp, fun a ha => ⟨fun he => h1 ⟨a, ha, he⟩, ?_⟩⟩
          cases hc : countReplacements a with
          | zero => rfl
          | succ n => exact absurd ⟨a, ha, by omega⟩ h2
        · intro _; rfl

/-- C55, partial: if every output the formatter completed is in its documented format, the script's exit status is 0 exactly if
there is a file and there are no replacements (and the formatter did not fail) for any file. Missing: outputs that are not in
this format; they count as "no replacement". -/
theorem C55_exit_status_partial (as : List Answer) (hw : ∀ a ∈ as, a = .failed ∨ ∃ k, a.Proposes k) :
    exitStatus as = 0 ↔ as ≠ [] ∧ ∀ a ∈ as, a.Proposes 0 := by
  rw [exitStatus_zero]
  constructor
  · rintro ⟨h1, h2⟩
    refine ⟨h1, fun a ha => ?_⟩
    obtain ⟨h3, h4⟩ := h2 a ha
    rcases hw a ha with h | ⟨k, hk⟩
    · exact absurd h h3
    · rw [count_proposes hk] at h4
      rw [h4] at hk; exact hk
  · rintro ⟨h1, h2⟩
    refine ⟨h1, fun a ha => ⟨?_, count_proposes (h2 a ha)⟩⟩
    obtain ⟨cs, h, _⟩ := h2 a ha
    rw [h]; exact fun h => by cases h

/-- C55, partial: if what the formatter completes is in its documented format or is no XML at all, the exit status is 0 exactly if
there is a file, the formatter fails for none, and for every file there are no replacements or its output is no XML. -/
theorem C55_exact_partial (as : List Answer) (hw : ∀ a ∈ as, a = .failed ∨ a = .malformed ∨ ∃ k, a.Proposes k) :
    exitStatus as = 0 ↔ as ≠ [] ∧ ∀ a ∈ as, a = .malformed ∨ a.Proposes 0 := by
  rw [exitStatus_zero]
  refine and_congr_right fun _ => forall_congr' fun a => forall_congr' fun ha => ?_
  rcases hw a ha with rfl | rfl | ⟨k, hk⟩
  · simp [Answer.Proposes]
  · simp [countReplacements]
  · rw [count_proposes hk]
    obtain ⟨cs, rfl, hr⟩ := hk
    constructor
    · rintro ⟨_, rfl⟩
      exact .inr ⟨cs, rfl, hr⟩
    · rintro (h | ⟨cs', h, hr'⟩)
      · cases h
      · simp only [Answer.document.injEq, List.cons.injEq, Node.element.injEq, true_and, and_true] at h
        subst h
        exact ⟨by simp, reports_unique hr hr'⟩

/-- C55, partial: one direction holds for any output: a file with replacements, a formatter that fails and an empty list of files
are never accepted, whatever the other files. -/
theorem C55_rejects_partial (as : List Answer) :
    (∀ k, (∃ a ∈ as, a.Proposes (k + 1)) → exitStatus as ≠ 0) ∧ ((∃ a ∈ as, a = .failed) → exitStatus as = 1) ∧
    exitStatus [] = 255 := by
  refine ⟨?_, ?_, by decide⟩
  · rintro k ⟨a, ha, hp⟩ h
    have := ((exitStatus_zero as).1 h).2 a ha
    rw [count_proposes hp] at this
    omega
  · intro h
    have hne : as.length ≠ 0 := by
      obtain ⟨a, ha, _⟩ := h
      intro hl
      rw [List.length_eq_zero_iff.1 hl] at ha
      cases ha
    simp only [exitStatus, run, if_neg hne, runFiles_eq, if_pos h]

/-- The nodes below `replacements` that have the name `replacement`, in order. -/
def mentions (ns : List Node) : List Node :=
  ((ns.filter (·.nodeName == "replacements")).flatMap Node.childNodes).filter (·.nodeName == "replacement")

/-- Nothing is counted: there is nothing with that name, or the first thing with that name is no element, which ends the
evaluation. -/
def Quiet (ns : List Node) : Prop := mentions ns = [] ∨ ∃ t rest, mentions ns = .instruction t :: rest

theorem countInner_ge (cs : List Node) : ∀ n, n ≤ (countInner cs n).1 := by
  induction cs with
  | nil => intro n; exact Nat.le_refl _
  | cons c cs ih =>
    intro n
    simp only [countInner]
    split
    · split
      · exact Nat.le_trans (Nat.le_succ n) (ih (n + 1))
      · exact Nat.le_refl _
    · exact ih n

theorem countOuter_ge (rs : List Node) : ∀ n, n ≤ (countOuter rs n).1 := by
  induction rs with
  | nil => intro n; exact Nat.le_refl _
  | cons r rs ih =>
    intro n
    simp only [countOuter]
    split
    · have := countInner_ge r.childNodes n
      split
      · rename_i m h; rw [h] at this; exact this
      · rename_i m h; rw [h] at this; exact Nat.le_trans this (ih m)
    · exact ih n

/-- What the inner loop finds, by the first node of that name. -/
theorem countInner_first (cs : List Node) (n : Nat) :
    (cs.filter (·.nodeName == "replacement") = [] → countInner cs n = (n, false)) ∧
    (∀ t rest, cs.filter (·.nodeName == "replacement") = .instruction t :: rest → countInner cs n = (n, true)) ∧
    (∀ name ch rest, cs.filter (·.nodeName == "replacement") = .element name ch :: rest → n < (countInner cs n).1) ∧
    (∀ rest, cs.filter (·.nodeName == "replacement") ≠ .text :: rest ∧
      cs.filter (·.nodeName == "replacement") ≠ .comment :: rest) := by
  induction cs with
  | nil => simp [countInner]
  | cons c cs ih =>
    by_cases hc : c.nodeName = "replacement"
    · have hf : (c :: cs).filter (·.nodeName == "replacement") = c :: cs.filter (·.nodeName == "replacement") := by
        rw [List.filter_cons_of_pos (by simp [hc])]
      rw [hf]
      cases c with
      | element name ch =>
        refine ⟨by simp, by simp, fun _ _ _ _ => ?_, by simp⟩
        simp only [countInner, hc, if_true]
        exact countInner_ge cs (n + 1)
      | instruction t => simp [countInner, hc]
      | text => exact absurd hc (by decide)
      | comment => exact absurd hc (by decide)
    · rw [List.filter_cons_of_neg (by simp [hc])]
      simpa only [countInner, if_neg hc] using ih

theorem countOuter_zero (ns : List Node) (n : Nat) : (countOuter ns n).1 = n ↔ Quiet ns := by
  induction ns with
  | nil => simp [countOuter, Quiet, mentions]
  | cons r rs ih =>
    by_cases hr : r.nodeName = "replacements"
    · have hm : mentions (r :: rs) = r.childNodes.filter (·.nodeName == "replacement") ++ mentions rs := by
        simp [mentions, hr]
      obtain ⟨h1, h2, h3, h4⟩ := countInner_first r.childNodes n
      simp only [countOuter, if_pos hr, Quiet, hm]
      cases hf : r.childNodes.filter (·.nodeName == "replacement") with
      | nil => rw [h1 hf]; exact ih
      | cons x rest =>
        cases x with
        | element name ch =>
          have := h3 name ch rest hf
          constructor
          · intro h
            exfalso
            split at h
            · rename_i m e; rw [e] at this; simp only at h this; omega
            · rename_i m e; rw [e] at this
              have := countOuter_ge rs m
              simp only at *; omega
          · simp
        | instruction t => rw [h2 t rest hf]; simp
        | text => exact absurd hf (h4 rest).1
        | comment => exact absurd hf (h4 rest).2
    · have hm : mentions (r :: rs) = mentions rs := by simp [mentions, hr]
      simp only [countOuter, if_neg hr, Quiet, hm]
      exact ih

/-- C55, partial: exactly which answers are accepted, of all there can be: every file's output is no XML, or mentions no replacement
where the script looks, or mentions first something that is not an element. Missing: the latter two, and what is no XML, is not
known to be formatted. -/
theorem C55_all_partial (as : List Answer) :
    exitStatus as = 0 ↔ as ≠ [] ∧ ∀ a ∈ as, a = .malformed ∨ ∃ ns, a = .document ns ∧ Quiet ns := by
  rw [exitStatus_zero]
  refine and_congr_right fun _ => forall_congr' fun a => forall_congr' fun ha => ?_
  cases a with
  | failed => simp
  | malformed => simp [countReplacements]
  | document ns => simp [countReplacements, countOuter_zero]

/-- An instruction with the name of the element hides the replacement after it. -/
example : exitStatus [.document [.element "replacements" [.instruction "replacement", .element "replacement" []],
      .element "replacements" [.element "replacement" []]]] = 0 ∧
    Quiet [.element "replacements" [.instruction "replacement", .element "replacement" []],
      .element "replacements" [.element "replacement" []]] ∧
    exitStatus [.document [.element "other" [.element "replacement" []]]] = 0 :=
  ⟨by decide, .inr ⟨_, _, rfl⟩, by decide⟩

/-- C55 is false of the script: if the formatter's output cannot be parsed the file passes. -/
theorem C55_full_statement_fails : ¬ C55_Statement := by
  intro h
  have := ((h [.malformed]).1 (by decide)).2 .malformed (by simp)
  obtain ⟨cs, h, _⟩ := this
  cases h

/-- A file whose output is no XML beside a formatted one: the check passes. -/
example : exitStatus [.malformed, .document [.element "replacements" []]] = 0 :=
  (C55_exact_partial _ (by
    simp only [List.mem_cons, List.not_mem_nil, or_false, forall_eq_or_imp, forall_eq]
    exact ⟨.inr (.inl trivial), .inr (.inr ⟨0, _, rfl, .done⟩)⟩)).2 ⟨by simp, by
    simp only [List.mem_cons, List.not_mem_nil, or_false, forall_eq_or_imp, forall_eq]
    exact ⟨.inl trivial, .inr ⟨_, rfl, .done⟩⟩⟩

/-- One formatted and one unformatted file. -/
example : Answer.Proposes (.document [.element "replacements" [.text, .element "replacement" [.text], .text]]) 1 ∧
    exitStatus [.document [.element "replacements" []],
      .document [.element "replacements" [.text, .element "replacement" [.text], .text]]] = 255 ∧
    exitStatus [.document [.element "replacements" []], .document [.element "replacements" [.text]]] = 0 :=
  ⟨⟨_, rfl, .blank _ _ (.replacement _ _ _ (.blank _ _ .done))⟩, by decide, by decide⟩

end Uavcan.FormatCheck
