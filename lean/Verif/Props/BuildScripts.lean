import Verif.Model.BuildScripts

/-!
# Properties of the build scripts

The specification: arguments given to a function are passed on; a green pipeline stands for all the
configurations there are scripts for.
-/

namespace Uavcan.BuildScripts

/-! ## Specification -/

/-- A command line has `-I` followed by a directory. -/
def LooksUp (command : List String) (dir : String) : Prop :=
  ∃ pre post, command = pre ++ "-I" :: dir :: post

/-- The lookup directories given to `create_dsdl_target`: all arguments after the five with names
(Findnnvg.cmake:15–30). -/
def Given (args : List String) : List String := args.drop 5

/-- Every command of a script succeeds. -/
def Succeeds (w : World) (s : Script) : Prop := ∀ c ∈ s.steps, w s c = true

/-- The scripts which the pipeline names. -/
def Listed (master : Bool) (s : Script) : Prop :=
  s = .nativeGcc ∨ s = .nativeClang ∨ s = .s32kBuild ∨ s = .s32kHook ∨
    (master = true ∧ (s = .uploadDocs ∨ s = .uploadReports))

/-- What has to have succeeded before a script is started: the tests on the board come after the builds,
publishing after everything else. -/
def After : Script → Script → Prop
  | .s32kHook, t => t = .nativeGcc ∨ t = .nativeClang ∨ t = .s32kBuild
  | .uploadDocs, t => t = .nativeGcc ∨ t = .nativeClang ∨ t = .s32kBuild ∨ t = .s32kHook
  | .uploadReports, t => t = .nativeGcc ∨ t = .nativeClang ∨ t = .s32kBuild ∨ t = .s32kHook
  | _, _ => False

/-! ## Lemmas -/

private theorem lookup_ne (x : String) : " -I " ++ x ≠ "-I" := by
  intro h
  have h2 := congrArg String.toList h
  rw [String.toList_append] at h2
  simp at h2

private theorem append_eq_of_ne {α : Type} {l : List α} {x : α} (h : x ∉ l) {b pre post : List α} :
    l ++ b = pre ++ x :: post → ∃ pre', b = pre' ++ x :: post := by
  induction l generalizing pre with
  | nil => exact fun h => ⟨pre, h⟩
  | cons y l ih =>
    intro hb
    cases pre with
    | nil =>
      rw [List.cons_append, List.nil_append, List.cons.injEq] at hb
      exact absurd (hb.1 ▸ List.mem_cons_self) h
    | cons z pre =>
      rw [List.cons_append, List.cons_append, List.cons.injEq] at hb
      exact ih (fun hm => h (List.mem_cons_of_mem _ hm)) hb.2

private theorem argv_range (args : List String) (k : Nat) :
    (List.range' k (args.length - k)).map (argv args) = args.drop k := by
  apply List.ext_getElem
  · simp
  · intro i h1 h2
    simp only [List.length_map, List.length_range'] at h1
    simp [argv, List.getElem?_eq_getElem (show k + i < args.length by omega)]

private theorem rangeValues_succ (first argc : Nat) (h : first ≤ argc) :
    rangeValues first argc = List.range' first (argc - first) ++ [argc] := by
  have h1 : argc + 1 - first = argc - first + 1 := by omega
  rw [rangeValues, h1, List.range'_1_concat]
  congr 2
  omega

private theorem argv_end (args : List String) : argv args args.length = "" := by
  simp [argv]

private theorem runSteps_ok (w : World) (s : Script) (cs : List Step) :
    (runSteps w s cs).1 = true ↔ ∀ c ∈ cs, w s c = true := by
  induction cs with
  | nil => simp [runSteps]
  | cons c cs ih =>
    rw [runSteps]
    by_cases hc : w s c = true
    · simp [hc, ih]
    · simp [hc]

private theorem runSteps_log (w : World) (s : Script) (cs : List Step) (h : (runSteps w s cs).1 = true) :
    (runSteps w s cs).2 = cs := by
  induction cs with
  | nil => rfl
  | cons c cs ih =>
    rw [runSteps] at h ⊢
    by_cases hc : w s c = true
    · simp only [hc, if_true] at h ⊢
      rw [ih h]
    · simp [hc] at h

private theorem runGroups_ok (w : World) (gs : List (List Script)) :
    (runGroups w gs).1 = true ↔ ∀ g ∈ gs, ∀ s ∈ g, Succeeds w s := by
  induction gs with
  | nil => simp [runGroups]
  | cons g gs ih =>
    have hg : (g.all fun s => (s.run w).1) = true ↔ ∀ s ∈ g, Succeeds w s := by
      rw [List.all_eq_true]
      constructor
      · exact fun h s hs => (runSteps_ok w s _).1 (h s hs)
      · exact fun h s hs => (runSteps_ok w s _).2 (h s hs)
    rw [runGroups]
    by_cases hc : (g.all fun s => (s.run w).1) = true
    · simp only [hc, if_true, List.mem_cons, forall_eq_or_imp]
      rw [ih, and_iff_right (hg.1 hc)]
    · simp only [hc, Bool.false_eq_true, if_false, List.mem_cons, forall_eq_or_imp, false_iff, not_and]
      exact fun h => absurd (hg.2 h) hc

private theorem runGroups_log (w : World) (gs : List (List Script)) (h : (runGroups w gs).1 = true) :
    (runGroups w gs).2 = (gs.flatMap id).flatMap fun s => s.steps.map fun c => (s, c) := by
  induction gs with
  | nil => rfl
  | cons g gs ih =>
    have hall := (runGroups_ok w (g :: gs)).1 h
    have hlog : (g.flatMap fun s => (s.run w).2.map fun c => (s, c)) =
        g.flatMap fun s => s.steps.map fun c => (s, c) := by
      have : ∀ l : List Script, (∀ s ∈ l, Succeeds w s) →
          (l.flatMap fun s => (s.run w).2.map fun c => (s, c)) =
            l.flatMap fun s => s.steps.map fun c => (s, c) := by
        intro l
        induction l with
        | nil => exact fun _ => rfl
        | cons s l ihl =>
          intro hl
          rw [List.flatMap_cons, List.flatMap_cons, ihl (fun t ht => hl t (List.mem_cons_of_mem _ ht))]
          have : (s.run w).2 = s.steps :=
            runSteps_log w s _ ((runSteps_ok w s _).2 (hl s List.mem_cons_self))
          rw [this]
      exact this g (hall g List.mem_cons_self)
    rw [runGroups] at h ⊢
    by_cases hc : (g.all fun s => (s.run w).1) = true
    · simp only [hc, if_true] at h ⊢
      rw [ih h, List.flatMap_cons, List.flatMap_append, hlog]
      rfl
    · simp [hc] at h

private theorem runGroups_scripts (w : World) (gs : List (List Script)) :
    ∀ x ∈ (runGroups w gs).2, ∃ g ∈ gs, x.1 ∈ g := by
  induction gs with
  | nil => simp [runGroups]
  | cons g gs ih =>
    have hl : ∀ x ∈ (g.flatMap fun s => (s.run w).2.map fun c => (s, c)), x.1 ∈ g := by
      intro x hx
      rw [List.mem_flatMap] at hx
      obtain ⟨s, hs, hx⟩ := hx
      rw [List.mem_map] at hx
      obtain ⟨c, _, rfl⟩ := hx
      exact hs
    intro x hx
    rw [runGroups] at hx
    by_cases hc : (g.all fun s => (s.run w).1) = true
    · simp only [hc, if_true, List.mem_append] at hx
      rcases hx with hx | hx
      · exact ⟨g, List.mem_cons_self, hl x hx⟩
      · obtain ⟨g', hg', hx'⟩ := ih x hx
        exact ⟨g', List.mem_cons_of_mem _ hg', hx'⟩
    · simp only [hc, Bool.false_eq_true, if_false] at hx
      exact ⟨g, List.mem_cons_self, hl x hx⟩

private theorem runSteps_prefix (w : World) (s : Script) (cs : List Step) :
    ∀ c ∈ (runSteps w s cs).2, ∃ pre post, cs = pre ++ c :: post ∧ ∀ c' ∈ pre, w s c' = true := by
  induction cs with
  | nil => simp [runSteps]
  | cons d cs ih =>
    intro c hc
    rw [runSteps] at hc
    by_cases hd : w s d = true
    · simp only [hd, if_true, List.mem_cons] at hc
      rcases hc with rfl | hc
      · exact ⟨[], cs, rfl, by simp⟩
      · obtain ⟨pre, post, rfl, h⟩ := ih c hc
        refine ⟨d :: pre, post, rfl, ?_⟩
        intro c' hc'
        rcases List.mem_cons.1 hc' with rfl | hc'
        · exact hd
        · exact h c' hc'
    · simp only [hd, Bool.false_eq_true, if_false, List.mem_singleton] at hc
      subst hc
      exact ⟨[], cs, rfl, by simp⟩

private theorem runGroups_prefix (w : World) (gs : List (List Script)) :
    ∀ x ∈ (runGroups w gs).2,
      (∃ pre post, x.1.steps = pre ++ x.2 :: post ∧ ∀ c' ∈ pre, w x.1 c' = true) ∧
      ∃ gpre g gpost, gs = gpre ++ g :: gpost ∧ x.1 ∈ g ∧ ∀ g' ∈ gpre, ∀ t ∈ g', Succeeds w t := by
  induction gs with
  | nil => simp [runGroups]
  | cons g gs ih =>
    have hl : ∀ x ∈ (g.flatMap fun s => (s.run w).2.map fun c => (s, c)),
        (∃ pre post, x.1.steps = pre ++ x.2 :: post ∧ ∀ c' ∈ pre, w x.1 c' = true) ∧ x.1 ∈ g := by
      intro x hx
      rw [List.mem_flatMap] at hx
      obtain ⟨s, hs, hx⟩ := hx
      rw [List.mem_map] at hx
      obtain ⟨c, hc, rfl⟩ := hx
      exact ⟨runSteps_prefix w s _ c hc, hs⟩
    intro x hx
    rw [runGroups] at hx
    by_cases hc : (g.all fun s => (s.run w).1) = true
    · simp only [hc, if_true, List.mem_append] at hx
      rcases hx with hx | hx
      · exact ⟨(hl x hx).1, [], g, gs, rfl, (hl x hx).2, by simp⟩
      · obtain ⟨h1, gpre, g', gpost, rfl, h2, h3⟩ := ih x hx
        refine ⟨h1, g :: gpre, g', gpost, rfl, h2, ?_⟩
        intro g'' hg'' t ht
        rcases List.mem_cons.1 hg'' with rfl | hg''
        · exact (runSteps_ok w t _).1 (List.all_eq_true.1 hc t ht)
        · exact h3 g'' hg'' t ht
    · simp only [hc, Bool.false_eq_true, if_false] at hx
      exact ⟨(hl x hx).1, [], g, gs, rfl, (hl x hx).2, by simp⟩

private theorem after_groups (master : Bool) (gpre : List (List Script)) (g : List Script)
    (gpost : List (List Script)) (h : groups master = gpre ++ g :: gpost) (s t : Script) (hs : s ∈ g)
    (ht : After s t) : ∃ g' ∈ gpre, t ∈ g' := by
  have h' : [[Script.nativeGcc, .nativeClang, .s32kBuild], [.s32kHook]] ++
    (if master then [[Script.uploadDocs, .uploadReports]] else []) = gpre ++ g :: gpost := h
  clear h
  match gpre, h' with
  | [], h' =>
    cases master <;> simp at h' <;> obtain ⟨rfl, _⟩ := h' <;> simp at hs <;>
      rcases hs with rfl | rfl | rfl <;> exact absurd ht id
  | [a], h' =>
    cases master <;> simp at h' <;> obtain ⟨rfl, rfl, _⟩ := h' <;> simp at hs <;> subst hs <;>
      simpa [After] using ht
  | [a, b], h' =>
    cases master <;> simp at h'
    obtain ⟨rfl, rfl, rfl, _⟩ := h'
    simp at hs
    rcases hs with rfl | rfl <;> simp [After] at ht ⊢ <;> grind
  | a :: b :: c :: rest, h' =>
    have := congrArg List.length h'
    cases master <;> simp at this <;> omega

private theorem listed_iff (master : Bool) (s : Script) :
    (∃ g ∈ groups master, s ∈ g) ↔ Listed master s := by
  cases master <;> cases s <;> simp [groups, Listed]

/-! ## C94 -/

/-- C94. No lookup directory reaches nnvg: with five or six arguments none is passed, with more an argument
of the wrong form for each but the first, and one without a directory. -/
theorem C94_lookup_partial (ext : String) (args : List String) :
    listOutputs ext args = ["--list-outputs", "--output-extension", ext, "-O", argv args 1] ++
      (if (Given args).length ≤ 1 then []
        else ((Given args).drop 1).map (" -I " ++ ·) ++ [" -I "]) ++ [argv args 3] := by
  unfold listOutputs lookupArgs
  congr 2
  simp only [Given, List.length_drop, List.drop_drop]
  by_cases h : args.length > 6
  · rw [if_pos h, if_neg (by omega), rangeValues_succ 6 _ (by omega), List.map_append, ← argv_range args 6,
      List.map_map]
    simp only [List.map_cons, List.map_nil, argv_end]
    rfl
  · rw [if_neg h, if_pos (by omega)]

/-- C94 is false: whatever directories are given, nnvg is not told of any of them (unless the file extension
or the output folder is itself written `-I`). -/
theorem C94_full_statement_fails (ext : String) (args : List String) (dir : String)
    (he : ext ≠ "-I") (ho : argv args 1 ≠ "-I") : ¬ LooksUp (listOutputs ext args) dir := by
  rintro ⟨pre, post, h⟩
  have hmem : "-I" ∉ ["--list-outputs", "--output-extension", ext, "-O", argv args 1] ++ lookupArgs args := by
    simp only [List.mem_append, List.mem_cons, List.not_mem_nil, or_false, not_or]
    refine ⟨⟨by decide, by decide, he.symm, by decide, ho.symm⟩, ?_⟩
    unfold lookupArgs
    by_cases hl : args.length > 6
    · rw [if_pos hl, List.mem_map]
      rintro ⟨n, _, hn⟩
      exact lookup_ne _ hn
    · rw [if_neg hl]; simp
  obtain ⟨pre', h'⟩ := append_eq_of_ne hmem h
  have := congrArg List.length h'
  simp at this
  omega

/-- C94. The functions with two named parameters pass on all further arguments that are not empty, in
order. -/
theorem C94_rest_partial (args : List String) (h : ∀ a ∈ args.drop 2, a ≠ "") :
    restArgs args = args.drop 2 := by
  have key : ∀ l : List Nat, (∀ n ∈ l, argv args n ≠ "") → appendArgs args l = l.map (argv args) := by
    intro l
    induction l with
    | nil => exact fun _ => rfl
    | cons n l ih =>
      intro hl
      have hn := hl n List.mem_cons_self
      have := ih (fun m hm => hl m (List.mem_cons_of_mem _ hm))
      simp only [appendArgs, List.flatMap_cons, if_neg hn, List.map_cons] at this ⊢
      rw [this]; rfl
  unfold restArgs
  by_cases hl : args.length > 2
  · have happ : ∀ a b : List Nat, appendArgs args (a ++ b) = appendArgs args a ++ appendArgs args b := by
      intro a b; simp [appendArgs]
    have hend : appendArgs args [args.length] = [] := by simp [appendArgs, argv_end]
    rw [if_pos hl, rangeValues_succ 2 _ (by omega), happ, hend, List.append_nil, key, argv_range]
    intro n hn
    have h1 : argv args n ∈ (List.range' 2 (args.length - 2)).map (argv args) := List.mem_map_of_mem hn
    rw [argv_range] at h1
    exact h _ h1
  · rw [if_neg hl, List.drop_eq_nil_of_le (by omega)]

/-- C94. The example is linked with the generated types exactly if a variable of the calling scope, which
is no argument of the function, happens to have its name. -/
theorem C94_link_partial (outer : Option String) (name : String) (hn : name ≠ "") :
    linkArgs outer = [name, "dsdl-regulated"] ↔ outer = some name := by
  cases outer with
  | none => simp [linkArgs]
  | some s =>
    by_cases hs : s = ""
    · subst hs
      simp [linkArgs, hn.symm]
    · simp [linkArgs, hs]

/-- C94, example: the call in CMakeLists.txt:90–94 has no lookup directory; with two, the first is dropped
and the second garbled. -/
example : lookupArgs ["dsdl-regulated", "gen", "templates", "uavcan", "ON"] = [] ∧
    lookupArgs ["dsdl-regulated", "gen", "templates", "uavcan", "ON", "a"] = [] ∧
    lookupArgs ["dsdl-regulated", "gen", "templates", "uavcan", "ON", "a", "b"] = [" -I b", " -I "] := by
  decide

/-- C94, example: the sources of the Linux example (linux/tests.cmake:38–44). -/
example : restArgs ["media_on_linux", "out", "main.cpp", "SocketCANInterface.cpp"] =
    ["main.cpp", "SocketCANInterface.cpp"] := C94_rest_partial _ (by decide)

/-! ## C95 -/

/-- C95. The pipeline is green exactly if every command of the scripts it names succeeds. -/
theorem C95_green_partial (w : World) (master : Bool) :
    (pipeline w master).1 = true ↔ ∀ s, Listed master s → Succeeds w s := by
  unfold pipeline
  rw [runGroups_ok]
  constructor
  · intro h s hs
    obtain ⟨g, hg, hsg⟩ := (listed_iff master s).2 hs
    exact h g hg s hsg
  · exact fun h g hg s hs => h s ((listed_iff master s).1 ⟨g, hg, hs⟩)

/-- C95. What a green pipeline stands for: everything compiles, the style is right, and the compile tests
pass, with GCC, with Clang and with the cross compiler; the unit tests pass with GCC and with Clang; and the
machine with the board was content. -/
theorem C95_means_partial (w : World) (master : Bool) (h : (pipeline w master).1 = true) :
    (∀ s ∈ [Script.nativeGcc, .nativeClang, .s32kBuild], w s .buildAll = true ∧ w s .compileTests = true) ∧
    (∀ s ∈ [Script.nativeGcc, .nativeClang], w s .unitTests = true) ∧ w .s32kHook .hook = true := by
  have hg := (C95_green_partial w master).1 h
  have h1 := hg .nativeGcc (by simp [Listed])
  have h2 := hg .nativeClang (by simp [Listed])
  have h3 := hg .s32kBuild (by simp [Listed])
  have h4 := hg .s32kHook (by simp [Listed])
  simp only [Succeeds, Script.steps, List.mem_cons, List.not_mem_nil, or_false, forall_eq_or_imp,
    forall_eq] at h1 h2 h3 h4 ⊢
  simp [h1, h2, h3, h4]

/-- C95. A green pipeline has run every command of the scripts it names, in order. -/
theorem C95_run_partial (w : World) (master : Bool) (h : (pipeline w master).1 = true) :
    (pipeline w master).2 = ((groups master).flatMap id).flatMap fun s => s.steps.map fun c => (s, c) :=
  runGroups_log w _ h

/-- C95. Green or not, no command of another script is run. -/
theorem C95_only_partial (w : World) (master : Bool) : ∀ x ∈ (pipeline w master).2, Listed master x.1 := by
  intro x hx
  exact (listed_iff master x.1).1 (runGroups_scripts w _ x hx)

/-- C95. Nothing is run after a failure: a command only after the earlier ones of its script succeeded, a
script only after those before the last `wait` succeeded. -/
theorem C95_stop_partial (w : World) (master : Bool) : ∀ x ∈ (pipeline w master).2,
    (∃ pre post, x.1.steps = pre ++ x.2 :: post ∧ ∀ c ∈ pre, w x.1 c = true) ∧
      ∀ t, After x.1 t → Succeeds w t := by
  intro x hx
  obtain ⟨h1, gpre, g, gpost, hg, h2, h3⟩ := runGroups_prefix w _ x hx
  refine ⟨h1, fun t ht => ?_⟩
  obtain ⟨g', hg', ht'⟩ := after_groups master gpre g gpost hg x.1 t h2 ht
  exact h3 g' hg' t ht'

/-- C95 is false: the pipeline can be green while the tests with exceptions fail, and while the Linux
example does not compile. -/
theorem C95_full_statement_fails (master : Bool) :
    ∃ w : World, (pipeline w master).1 = true ∧ w .nativeGccExceptions .unitTests = false ∧
      w .linux .buildAll = false :=
  ⟨fun s _ => s != .nativeGccExceptions && s != .linux,
    (C95_green_partial _ master).2 (by rintro s (rfl | rfl | rfl | rfl | ⟨_, rfl | rfl⟩) c _ <;> rfl), rfl, rfl⟩

/-- C95. The script for tests on the board never downloads the binaries of the build, whatever the
variables are; it runs the test if it has a port. -/
theorem C95_board_partial (arg uart buildId : String) :
    (∀ p, Action.download p ∉ (onTargetTest arg uart buildId).2) ∧
    ((onTargetTest arg uart buildId).1 = true ↔ arg ≠ "" ∨ uart ≠ "") ∧
    (∀ port, Action.nait port ∈ (onTargetTest arg uart buildId).2 ↔
      port ≠ "" ∧ port = if arg = "" then uart else arg) := by
  have hc : downloadCondition buildId ≠ some 0 := by
    unfold downloadCondition bracket
    by_cases hb : buildId = ""
    · subst hb; decide
    · rw [if_pos]
      · simp
      · simp only [List.getLast?_cons_cons, List.getLast?_singleton, ne_eq, Option.some.injEq]
        intro h
        have h2 := congrArg String.length h
        rw [String.length_append] at h2
        have h3 : ("]" : String).length = 1 := by decide
        rw [h3] at h2
        exact hb (String.length_eq_zero_iff.1 (by omega))
  have hp : ∀ p : String, bracket ["-z", p, "]"] = some 0 ↔ p = "" := by
    intro p; by_cases h : p = "" <;> simp [bracket, h]
  unfold onTargetTest fetchArtifacts
  rw [if_neg hc]
  simp only [hp]
  by_cases ha : arg = "" <;> by_cases hu : uart = "" <;> simp [ha, hu]
  all_goals intro port
  all_goals constructor
  all_goals first
    | (rintro rfl; simp_all)
    | (intro h; simp_all)

/-- C95. With the space, the script would download exactly in builds of the server. -/
theorem C95_board_intended (buildId : String) :
    Action.download "test/build_ontarget_s32k/*.hex" ∈ fetchArtifacts (bracket ["!", "-z", buildId, "]"]) ↔
      buildId ≠ "" := by
  by_cases hb : buildId = "" <;> simp [bracket, fetchArtifacts, hb]

/-- C95, example: a board is tested with the binaries that happen to be there. -/
example : onTargetTest "" "/dev/ttyUSB0" "0a1b" = (true, [.announceSkip, .nait "/dev/ttyUSB0"]) := by decide

/-- C95, example: a configuration that fails makes the pipeline red, and neither the rest of
its script nor the next group is run. -/
example : (pipeline (fun s c => !(s == .nativeClang && c == .configure)) true) =
    (false, [(.nativeGcc, .configure), (.nativeGcc, .clean), (.nativeGcc, .buildAll),
      (.nativeGcc, .compileTests), (.nativeGcc, .unitTests), (.nativeGcc, .docs), (.nativeClang, .configure),
      (.s32kBuild, .configure), (.s32kBuild, .buildAll), (.s32kBuild, .compileTests)]) := by decide

end Uavcan.BuildScripts
