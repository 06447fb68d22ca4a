import Verif.Model.Configure

/-!
# C121: configuring the build again
-/

namespace Uavcan.Configure

/-! ## Specification -/

/-- Everything the build needs is there: virtualenv, or else nunavut; the servers; the tools. -/
def AllThere (w : World) : Prop :=
  (if w.virtualenv = true then w.creates = some true ∧ w.pip = true else w.globalNnvg = true) ∧
  w.dsdlServer = true ∧ w.gtestServer = true ∧ w.doxygen = true ∧ w.clangFormat = true ∧ w.lists = true

/-- The property as stated in `properties.jsonl`: whatever runs there have been, one with everything there succeeds, and nnvg is the one that the requirements ask for. -/
def C121_Statement : Prop :=
  ∀ (as : List Action) (w : World), AllThere w →
    (run w (after .empty as)).1 = true ∧
    (w.virtualenv = true → (run w (after .empty as)).2.pyenv = some ⟨true, some w.requirements⟩)

/-- The runs since the environment was last deleted. -/
def since (as : List Action) : List World :=
  as.foldl (fun l a => match a with | .run w => l ++ [w] | .deleteEnv => []) []

/-- Runs that leave a directory for the environment, if there is none. -/
def makes (w : World) : Bool := w.virtualenv && w.creates.isSome

/-- What such a run leaves. -/
def madeBy (w : World) : Env := ⟨w.creates == some true, if w.creates = some true ∧ w.pip = true then some w.requirements else none⟩

/-! ## Lemmas -/

theorem run_pyenv (w : World) (s : State) : (run w s).2.pyenv = (findVirtualenv w s).pyenv := by
  simp only [run]
  split <;> try split
  all_goals try split
  all_goals try split
  all_goals try split
  all_goals try split
  all_goals rfl

theorem findVirtualenv_pyenv (w : World) (s : State) :
    (findVirtualenv w s).pyenv = match s.pyenv with
      | some e => some e
      | none => if makes w = true then some (madeBy w) else none := by
  unfold findVirtualenv makes madeBy
  cases hv : w.virtualenv <;> cases hs : s.pyenv <;> cases hc : w.creates <;> simp [hs]

theorem since_snoc (as : List Action) (a : Action) :
    since (as ++ [a]) = match a with | .run w => since as ++ [w] | .deleteEnv => [] := by
  simp only [since, List.foldl_append, List.foldl_cons, List.foldl_nil]

/-- The environment after any actions: what the first run that could make one left. -/
theorem after_pyenv (as : List Action) : (after .empty as).pyenv = ((since as).find? makes).map madeBy := by
  rw [← List.reverse_reverse as]
  induction as.reverse with
  | nil => rfl
  | cons a l ih =>
    rw [List.reverse_cons, since_snoc, after, List.foldl_append]
    rw [after] at ih
    cases a with
    | deleteEnv => rfl
    | run w =>
      simp only [List.foldl_cons, List.foldl_nil, Action.apply, run_pyenv, findVirtualenv_pyenv, ih, List.find?_append]
      cases hf : (since l.reverse).find? makes with
      | some v => rfl
      | none =>
        cases hm : makes w <;> simp [hm]

/-- When a run succeeds. -/
theorem run_iff (w : World) (s : State) : (run w s).1 = true ↔
    (s.dsdl || w.dsdlServer) = true ∧ (s.gtest || w.gtestServer) = true ∧ w.doxygen = true ∧ w.clangFormat = true ∧ w.lists = true ∧
      (if w.virtualenv = true then ∃ e, (findVirtualenv w s).pyenv = some e ∧ e.python = true ∧ e.installed.isSome = true
        else w.globalNnvg = true) := by
  have hd : (findVirtualenv w s).dsdl = s.dsdl := by
    unfold findVirtualenv; split
    · split
      · rfl
      · split <;> rfl
    · rfl
  have hg : (findVirtualenv w s).gtest = s.gtest := by
    unfold findVirtualenv; split
    · split
      · rfl
      · split <;> rfl
    · rfl
  simp only [run, fetchDsdl, fetchGtest, hd, hg, nnvgRuns, findNnvg]
  generalize (findVirtualenv w s).pyenv = p
  cases s.dsdl || w.dsdlServer <;> cases s.gtest || w.gtestServer <;> cases w.doxygen <;> cases w.clangFormat <;> cases w.lists <;>
    cases w.virtualenv <;> cases w.globalNnvg <;> simp
  all_goals
    cases p with
    | none => simp
    | some e =>
      cases hi : e.installed <;> cases hp : e.python <;> simp [hi, hp]

/-! ## C121 -/

/-- C121, partial: a run that succeeds has found everything: the downloads, the tools, and an nnvg that runs. -/
theorem C121_success_partial (w : World) (s : State) (h : (run w s).1 = true) :
    (s.dsdl = true ∨ w.dsdlServer = true) ∧ (s.gtest = true ∨ w.gtestServer = true) ∧ w.doxygen = true ∧ w.clangFormat = true ∧ w.lists = true ∧
      (w.virtualenv = true → ∃ r, (run w s).2.pyenv = some ⟨true, some r⟩) ∧ (w.virtualenv = false → w.globalNnvg = true) := by
  rw [run_iff] at h
  obtain ⟨h1, h2, h3, h4, h5, h6⟩ := h
  refine ⟨by simpa using h1, by simpa using h2, h3, h4, h5, ?_, ?_⟩
  · intro hv
    rw [if_pos hv] at h6
    obtain ⟨⟨p, i⟩, e1, e2, e3⟩ := h6
    obtain ⟨r, hr⟩ := Option.isSome_iff_exists.1 e3
    refine ⟨r, ?_⟩
    rw [run_pyenv, e1]
    simp only at e2 hr
    rw [e2, hr]
  · intro hv
    rw [if_neg (by simp [hv])] at h6
    exact h6

/-- C121, partial: with everything there a run succeeds exactly if virtualenv is not used, or the first run with it since the environment was last deleted could
create the environment and install the requirements. Missing: after any other first run it fails. -/
theorem C121_succeeds_iff_partial (as : List Action) (w : World) (h : AllThere w) :
    (run w (after .empty as)).1 = true ↔
      (w.virtualenv = true → ∀ v, (since as).find? makes = some v → v.creates = some true ∧ v.pip = true) := by
  obtain ⟨h0, h1, h2, h3, h4, h5⟩ := h
  rw [run_iff, findVirtualenv_pyenv, after_pyenv]
  cases hv : w.virtualenv with
  | false =>
    rw [if_neg (by simp [hv])] at h0
    simp [h0, h1, h2, h3, h4, h5]
  | true =>
    rw [if_pos hv] at h0
    cases hf : (since as).find? makes with
    | none => simp [h1, h2, h3, h4, h5, makes, madeBy, hv, h0.1, h0.2]
    | some v =>
      simp only [Option.map_some, Option.some.injEq]
      simp only [h1, h2, h3, h4, h5, Bool.or_true, true_and, if_true, true_imp_iff]
      constructor
      · rintro ⟨e, rfl, e1, e2⟩ v' rfl
        simp only [madeBy] at e1 e2
        by_cases hc : v.creates = some true ∧ v.pip = true
        · exact hc
        · rw [if_neg hc] at e2; cases e2
      · intro hh
        obtain ⟨g1, g2⟩ := hh v rfl
        exact ⟨madeBy v, rfl, by simp [madeBy, g1], by simp [madeBy, g1, g2]⟩

/-- C121, partial: after a first run that could not, every run with virtualenv fails, whatever is there then, as long as the environment is not deleted. -/
theorem C121_fails_for_ever_partial (as : List Action) (v : World) (hv : (since as).find? makes = some v)
    (hbad : ¬ (v.creates = some true ∧ v.pip = true)) (ws : List World) (w : World) (hw : w.virtualenv = true) :
    (run w (after .empty (as ++ ws.map .run))).1 = false := by
  have hs : since (as ++ ws.map .run) = since as ++ ws := by
    rw [since, List.foldl_append, ← since]
    generalize since as = l
    induction ws generalizing l with
    | nil => simp
    | cons x ws ih =>
      rw [List.map_cons, List.foldl_cons]
      simp only [ih, List.append_assoc, List.singleton_append]
  rw [← Bool.not_eq_true, run_iff, if_pos hw, findVirtualenv_pyenv, after_pyenv, hs, List.find?_append, hv]
  rintro ⟨-, -, -, -, -, e, e1, -, e3⟩
  simp only [Option.some_or, Option.map_some, Option.some.injEq] at e1
  subst e1
  simp [madeBy, hbad] at e3

/-- C121, partial: which requirements are installed: those of the first run, not those of the last. -/
theorem C121_stale_partial (as : List Action) (v : World) (hv : (since as).find? makes = some v)
    (hgood : v.creates = some true ∧ v.pip = true) (w : World) :
    (run w (after .empty as)).2.pyenv = some ⟨true, some v.requirements⟩ := by
  rw [run_pyenv, findVirtualenv_pyenv, after_pyenv, hv]
  simp [madeBy, hgood]

/-- C121, partial: deleting the environment helps in every case. -/
theorem C121_delete_partial (s : State) (w : World) (h : AllThere w) :
    (run w (Action.deleteEnv.apply s)).1 = true ∧
      (w.virtualenv = true → (run w (Action.deleteEnv.apply s)).2.pyenv = some ⟨true, some w.requirements⟩) := by
  obtain ⟨h0, h1, h2, h3, h4, h5⟩ := h
  constructor
  · rw [run_iff, findVirtualenv_pyenv]
    simp only [Action.apply]
    cases hv : w.virtualenv with
    | false => rw [if_neg (by simp [hv])] at h0; simp [h0, h1, h2, h3, h4, h5]
    | true => rw [if_pos hv] at h0; simp [h0, h1, h2, h3, h4, h5, makes, madeBy, hv]
  · intro hv
    rw [if_pos hv] at h0
    rw [run_pyenv, findVirtualenv_pyenv]
    simp [Action.apply, makes, madeBy, hv, h0]

/-- A machine with everything, and one without network. -/
def online (requirements : Nat) : World := ⟨true, some true, true, requirements, false, true, true, true, true, true⟩
def offline : World := ⟨true, some true, false, 0, false, false, false, true, true, true⟩

/-- C121 is false of the code. -/
theorem C121_full_statement_fails : ¬ C121_Statement := fun h => by
  have h1 := (h [.run offline] (online 0) (by unfold AllThere; decide)).1
  have h2 := C121_fails_for_ever_partial [.run offline] offline rfl (by decide) [] (online 0) rfl
  rw [List.map_nil, List.append_nil] at h2
  rw [h1] at h2
  cases h2

/-- One run without network, one with it, one after deleting the environment. -/
example : (run (online 0) (after .empty [.run offline])).1 = false ∧ (run (online 0) (after .empty [.run offline, .deleteEnv])).1 = true ∧
    (run (online 1) (after .empty [.run (online 0)])).2.pyenv = some ⟨true, some 0⟩ := by decide

end Uavcan.Configure
