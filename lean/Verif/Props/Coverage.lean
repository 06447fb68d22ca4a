import Verif.Lemmas.Coverage

/-!
# C112: coverage reports tell what the tests execute
-/

namespace Uavcan.Coverage

/-- What happens in a test directory: any of the actions, for tests that exist. -/
def Action.Valid (w : World) : Action → Prop
  | .edit _ => True
  | .compile x => x ∈ w.tests
  | .run x => x ∈ w.tests
  | .report x => x ∈ w.tests
  | .zero => True
  | .covAll es => EvsOf w es
  | .clean => True

/-- A history of a directory. -/
def history (w : World) (as : List Action) (d : Dir) : Dir := as.foldl (Action.apply w) d

/-- That `coverage.info` says what the tests as they are now execute: for the lines of the library that a test has code for the number
of times that the tests execute them, and nothing about other lines. -/
def Tells (w : World) (d : Dir) : Prop :=
  ∃ t, d.total = some t ∧ ∀ l, t l =
    if w.lib l = true ∧ ∃ x ∈ w.tests, w.lines x (d.source x) l = true then
      some ((w.tests.map fun x => if w.lines x (d.source x) l then w.hits x (d.source x) l else 0).sum)
    else none

/-- Builds of `cov_all` report every test, whatever their order is. -/
def Covers (w : World) (es : List Ev) : Prop := EvsOf w es ∧ ∀ x ∈ w.tests, .report x ∈ es

/-- Make with several jobs: the commands of the tests in any order in which those of each test are in order. -/
def Interleaving (w : World) (sched : List (Test × Cmd)) : Prop :=
  (∀ e ∈ sched, e.1 ∈ w.tests) ∧ ∀ x ∈ w.tests, (sched.filter fun e => e.1 = x) = recipe.map fun c => (x, c)

/-- The property as stated in `properties.jsonl`: `cov_all` with one job tells what the tests execute whatever was done in the directory
before, and with several jobs each test's report is right. -/
def C112_Statement : Prop :=
  ∀ w : World, w.tests.Nodup →
    (∀ (s : Test → Nat) (as : List Action), (∀ a ∈ as, a.Valid w) → ∀ es, Covers w es →
      (covAll w es (history w as (Dir.new s))).1 = true → Tells w (covAll w es (history w as (Dir.new s))).2) ∧
    (∀ d : Dir, (∀ x ∈ w.tests, d.exe x = some (d.source x) ∧ d.gcno x = some (d.source x)) → ∀ sched, Interleaving w sched →
      (execAll w sched d).1 = true → ∀ x ∈ w.tests, ∃ i, (execAll w sched d).2.filtered x = some i ∧ Right w x (d.source x) i)

theorem covInfo_inv {w : World} {d : Dir} (h : Inv w d) : Inv w (covInfo w d).2 := by
  unfold covInfo
  split
  · exact ⟨h.notes, h.fresh⟩
  · split
    · exact ⟨h.notes, h.fresh⟩
    · exact h

theorem covAll_inv {w : World} (hn : w.tests.Nodup) {d : Dir} (h : Inv w d) (es : List Ev) (he : EvsOf w es) :
    Inv w (covAll w es d).2 := by
  have hr := (runEvs_spec w hn es he d h).1
  unfold covAll
  generalize runEvs w es d = r at *
  obtain ⟨b, e⟩ := r
  cases b
  · exact hr
  · exact covInfo_inv hr

theorem apply_inv {w : World} (hn : w.tests.Nodup) {d : Dir} (h : Inv w d) (a : Action) (ha : a.Valid w) : Inv w (a.apply w d) := by
  cases a with
  | edit xs => exact ⟨h.notes, h.fresh⟩
  | compile x => exact h.compile x
  | run x => exact ⟨(h.compile x).notes, (h.compile x).fresh⟩
  | report x => exact (report_spec w hn x ha d h).1
  | zero => exact ⟨h.notes, h.fresh⟩
  | covAll es => exact covAll_inv hn h es ha
  | clean => exact ⟨fun _ _ h => (nomatch h), fun _ _ h => (nomatch h)⟩

theorem history_inv {w : World} (hn : w.tests.Nodup) {d : Dir} (h : Inv w d) (as : List Action) (ha : ∀ a ∈ as, a.Valid w) :
    Inv w (history w as d) := by
  induction as generalizing d with
  | nil => exact h
  | cons a as ih =>
    exact ih (apply_inv hn h a (ha a (List.mem_cons_self ..))) fun b hb => ha b (List.mem_cons_of_mem _ hb)

/-- C112, partial: with one job, whatever was done before, if there is no `coverage.all.info` then `cov_all` succeeds exactly if every
test passes, and then `coverage.info` has the right counts, lists every line of the library the tests have code for, and only
lines of the library. Missing: other lines of the library may be listed with 0, and the file is not written again. -/
theorem C112_first_partial (w : World) (hn : w.tests.Nodup) (s : Test → Nat) (as : List Action) (hv : ∀ a ∈ as, a.Valid w) (es : List Ev)
    (he : Covers w es) (ha : (history w as (Dir.new s)).all = none) :
    ((covAll w es (history w as (Dir.new s))).1 = true ↔ ∀ x ∈ w.tests, w.passes x ((history w as (Dir.new s)).source x) = true) ∧
    ((covAll w es (history w as (Dir.new s))).1 = true →
      (covAll w es (history w as (Dir.new s))).2.source = (history w as (Dir.new s)).source ∧
      ∃ t, (covAll w es (history w as (Dir.new s))).2.total = some t ∧
        (∀ l, count t l = if w.lib l then (w.tests.map fun x =>
          if w.lines x ((history w as (Dir.new s)).source x) l then w.hits x ((history w as (Dir.new s)).source x) l else 0).sum else 0) ∧
        (∀ l, w.lib l = true → ∀ x ∈ w.tests, w.lines x ((history w as (Dir.new s)).source x) l = true → (t l).isSome = true) ∧
        ∀ l, (t l).isSome = true → w.lib l = true) := by
  have hi := history_inv hn (Inv.new w s) as hv
  generalize history w as (Dir.new s) = d at *
  obtain ⟨r1, r2, r3, r4, r5, r6, r7⟩ := runEvs_spec w hn es he.1 d hi
  have r5' : (runEvs w es d).1 = true ↔ ∀ x ∈ w.tests, w.passes x (d.source x) = true :=
    r5.trans ⟨fun h x hx => h x (he.2 x hx), fun h x hx => h x (he.1 x (.inl hx))⟩
  unfold covAll
  generalize runEvs w es d = r at *
  obtain ⟨b, e⟩ := r
  simp only at r1 r2 r3 r4 r6 r7 r5'
  cases b with
  | false =>
    simp only
    exact ⟨r5', fun h => (nomatch h)⟩
  | true =>
    obtain ⟨t, g, hc, hg, ht⟩ := covInfo_new w e r1 (fun x hx => by rw [r2]; exact r7 rfl x (he.2 x hx)) (r3.trans ha)
    simp only
    rw [hc]
    rw [r2] at hg
    refine ⟨⟨fun _ => r5'.1 rfl, fun _ => rfl⟩, fun _ => ⟨r2, t, rfl, fun l => ?_, fun l hl x hx hline => ?_, fun l hs => ?_⟩⟩
    · rw [ht, count_extract, count_sum, List.map_map]
      split
      · rename_i hl
        refine sum_map_congr _ _ _ fun x hx => ?_
        simp only [Function.comp]
        rw [(hg x hx).2.counts l, hl, Bool.true_and]
      · rfl
    · rw [ht, isSome_extract, hl, Bool.true_and, isSome_sum]
      exact ⟨_, List.mem_map.2 ⟨x, hx, rfl⟩, (hg x hx).2.listed l hl hline⟩
    · rw [ht, isSome_extract, Bool.and_eq_true] at hs
      exact hs.1

theorem compileAll (w : World) (xs : List Test) (d : Dir) (h : Inv w d) :
    let d' := xs.foldl (fun d x => compile x d) d
    Inv w d' ∧ d'.source = d.source ∧ d'.all = d.all ∧ (∀ x ∈ xs, d'.exe x = some (d.source x)) ∧
      (∀ y, d.exe y = some (d.source y) → d'.exe y = some (d.source y)) ∧
      ((∀ y ∈ w.tests, d.fresh y = false) → ∀ y ∈ w.tests, d'.fresh y = false) := by
  induction xs generalizing d with
  | nil => exact ⟨h, rfl, rfl, fun _ hx => (nomatch hx), fun _ => id, id⟩
  | cons x xs ih =>
    obtain ⟨c1, c2, c3, c4, c5, _⟩ := compile_spec x d
    obtain ⟨i1, i2, i3, i4, i5, i6⟩ := ih (compile x d) (h.compile x)
    rw [c2] at i2 i4 i5
    refine ⟨i1, i2, i3.trans c3, fun y hy => ?_, fun y hy => i5 y ((compile_uptodate x y d hy).1.trans hy), fun hf => i6 fun y hy => ?_⟩
    · rcases List.mem_cons.1 hy with rfl | hy
      · exact i5 y c1
      · exact i4 y hy
    · unfold compile
      split
      · exact hf y hy
      · simp only [upd]
        split
        · rfl
        · exact hf y hy

/-- C112, partial: what the build server does (native-gcc-build-and-test.sh:56–72): after `clean` and `all`, `cov_all` with one job tells
exactly what the tests execute, whatever was done before. Missing: without `clean`, and with several jobs. -/
theorem C112_server_partial (w : World) (hn : w.tests.Nodup) (s : Test → Nat) (as : List Action) (hv : ∀ a ∈ as, a.Valid w) (es : List Ev)
    (he : Covers w es) (ok : (covAll w es (history w (as ++ [.clean] ++ w.tests.map Action.compile) (Dir.new s))).1 = true) :
    Tells w (covAll w es (history w (as ++ [.clean] ++ w.tests.map Action.compile) (Dir.new s))).2 := by
  have e0 : history w (as ++ [.clean] ++ w.tests.map Action.compile) (Dir.new s) =
      w.tests.foldl (fun d x => compile x d) (Action.clean.apply w (history w as (Dir.new s))) := by
    unfold history
    rw [List.foldl_append, List.foldl_append, List.foldl_cons, List.foldl_nil, List.foldl_map]
    rfl
  rw [e0] at ok ⊢
  have hi := apply_inv hn (history_inv hn (Inv.new w s) as hv) .clean trivial
  have hf0 : ∀ y ∈ w.tests, (Action.clean.apply w (history w as (Dir.new s))).fresh y = false := fun _ _ => rfl
  have ha0 : (Action.clean.apply w (history w as (Dir.new s))).all = none := rfl
  generalize Action.clean.apply w (history w as (Dir.new s)) = c at *
  obtain ⟨i1, i2, i3, i4, _, i6⟩ := compileAll w w.tests c hi
  have hf := i6 hf0
  have ha := i3.trans ha0
  generalize w.tests.foldl (fun d x => compile x d) c = d at *
  have hb : Built w d := ⟨fun x hx => by rw [i4 x hx, i2], fun x hx => i1.notes x _ (by rw [i4 x hx, i2]),
    fun x hx h => absurd h (by rw [hf x hx]; decide)⟩
  obtain ⟨r1, r2, r3, r4, r5, r6, r7⟩ := runEvs_spec w hn es he.1 d i1
  have hb' := hb.runEvs hn es he.1
  unfold covAll at ok ⊢
  generalize runEvs w es d = r at *
  obtain ⟨b, e⟩ := r
  cases b with
  | false => cases ok
  | true =>
    simp only at r1 r2 r3 r7 hb' ok ⊢
    have hfe : ∀ x ∈ w.tests, e.exe x = some (e.source x) ∧ e.fresh x = true := fun x hx => by
      rw [r2]; exact r7 trivial x (he.2 x hx)
    obtain ⟨t, g, hc, hg, ht⟩ := covInfo_new w e r1 hfe (r3.trans ha)
    rw [hc]
    refine ⟨t, rfl, fun l => ?_⟩
    simp only
    have hcount : count t l = if w.lib l then (w.tests.map fun x => if w.lines x (e.source x) l then w.hits x (e.source x) l else 0).sum else 0 := by
      rw [ht, count_extract, count_sum, List.map_map]
      split
      · rename_i hl
        refine sum_map_congr _ _ _ fun x hx => ?_
        simp only [Function.comp]
        rw [(hg x hx).2.counts l, hl, Bool.true_and]
      · rfl
    have hsome : (t l).isSome = true ↔ w.lib l = true ∧ ∃ x ∈ w.tests, w.lines x (e.source x) l = true := by
      rw [ht, isSome_extract, Bool.and_eq_true, isSome_sum]
      constructor
      · rintro ⟨h1, _, hm, h2⟩
        obtain ⟨x, hx, rfl⟩ := List.mem_map.1 hm
        exact (hb'.lists x hx (hfe x hx).2 _ (hg x hx).1 l).1 h2
      · rintro ⟨h1, x, hx, h2⟩
        exact ⟨h1, _, List.mem_map.2 ⟨x, hx, rfl⟩, (hg x hx).2.listed l h1 h2⟩
    split
    · rename_i h
      have := hsome.2 h
      rw [h.1, if_pos rfl] at hcount
      rw [← hcount]
      unfold count
      cases htl : t l with
      | none => rw [htl] at this; cases this
      | some n => rfl
    · rename_i h
      cases htl : t l with
      | none => rfl
      | some n => exact absurd (hsome.1 (by rw [htl]; rfl)) h

theorem apply_total (w : World) (hn : w.tests.Nodup) (d : Dir) (hi : Inv w d) (b : Action) (hb : b.Valid w) (hc : b ≠ .clean) (a t : Info)
    (ha : d.all = some a) (ht : d.total = some t) : (b.apply w d).all = some a ∧ (b.apply w d).total = some t := by
  cases b with
  | edit xs => exact ⟨ha, ht⟩
  | compile x => exact ⟨(compile_spec x d).2.2.1.trans ha, (compile_spec x d).2.2.2.1.trans ht⟩
  | run x => exact ⟨(compile_spec x d).2.2.1.trans ha, (compile_spec x d).2.2.2.1.trans ht⟩
  | report x =>
    have := report_spec w hn x hb d hi
    exact ⟨this.2.2.2.1.trans ha, this.2.2.2.2.1.trans ht⟩
  | zero => exact ⟨ha, ht⟩
  | covAll es =>
    obtain ⟨-, -, r3, r4, -⟩ := runEvs_spec w hn es hb d hi
    change (covAll w es d).2.all = _ ∧ (covAll w es d).2.total = _
    unfold covAll
    generalize runEvs w es d = r at *
    obtain ⟨ok, e⟩ := r
    simp only at r3 r4
    cases ok with
    | false => exact ⟨r3.trans ha, r4.trans ht⟩
    | true =>
      simp only [covInfo]
      rw [r3, r4, ha, ht]
      exact ⟨rfl, rfl⟩
  | clean => exact absurd rfl hc

/-- C112: once `coverage.all.info` and `coverage.info` are there, nothing but `clean` changes them, whatever is edited and built. -/
theorem C112_never_again (w : World) (hn : w.tests.Nodup) (s : Test → Nat) (as bs : List Action) (hv : ∀ a ∈ as ++ bs, a.Valid w)
    (hc : Action.clean ∉ bs) (a t : Info) (ha : (history w as (Dir.new s)).all = some a)
    (ht : (history w as (Dir.new s)).total = some t) : (history w (as ++ bs) (Dir.new s)).total = some t := by
  have hi := history_inv hn (Inv.new w s) as fun b hb => hv b (List.mem_append_left _ hb)
  rw [show history w (as ++ bs) (Dir.new s) = history w bs (history w as (Dir.new s)) from List.foldl_append ..]
  replace hv : ∀ b ∈ bs, b.Valid w := fun b hb => hv b (List.mem_append_right _ hb)
  generalize history w as (Dir.new s) = d at *
  induction bs generalizing d with
  | nil => exact ht
  | cons b bs ih =>
    have hb := hv b (List.mem_cons_self ..)
    have hu := apply_total w hn d hi b hb (fun e => hc (e ▸ List.mem_cons_self ..)) a t ha ht
    exact ih (fun h => hc (List.mem_cons_of_mem _ h)) (fun b hb => hv b (List.mem_cons_of_mem _ hb)) (b.apply w d) hu.1 hu.2
      (apply_inv hn hi b hb)

/-! ### Several jobs -/

/-- The tests that were run since the counters were last removed, in order. -/
def since (sched : List (Test × Cmd)) : List Test :=
  sched.foldl (fun acc e => match e.2 with | .zero => [] | .run => acc ++ [e.1] | _ => acc) []

/-- What the counters are after some runs. -/
def Counted (w : World) (d : Dir) (acc : List Test) : Prop :=
  (∀ y ∈ acc, y ∈ w.tests) ∧ ∀ y ∈ w.tests,
    (acc.count y = 0 → d.gcda y = none) ∧
    (0 < acc.count y → ∃ c, d.gcda y = some (d.source y, c) ∧ ∀ l, c l = acc.count y * w.hits y (d.source y) l)

/-- Everything is compiled. -/
def Compiled (w : World) (d : Dir) : Prop := ∀ x ∈ w.tests, d.exe x = some (d.source x) ∧ d.gcno x = some (d.source x)

theorem exec_same (w : World) (x : Test) (c : Cmd) (d : Dir) :
    (exec w x d c).2.source = d.source ∧ (exec w x d c).2.exe = d.exe ∧ (exec w x d c).2.gcno = d.gcno := by
  cases c with
  | zero => exact ⟨rfl, rfl, rfl⟩
  | initial => exact ⟨rfl, rfl, rfl⟩
  | run => dsimp only [exec]; split <;> exact ⟨rfl, rfl, rfl⟩
  | capture => dsimp only [exec]; split <;> exact ⟨rfl, rfl, rfl⟩
  | combine => dsimp only [exec]; split <;> exact ⟨rfl, rfl, rfl⟩
  | extract => dsimp only [exec]; split <;> exact ⟨rfl, rfl, rfl⟩

theorem Compiled.exec {w : World} {d : Dir} (h : Compiled w d) (x : Test) (c : Cmd) : Compiled w (exec w x d c).2 := by
  obtain ⟨h1, h2, h3⟩ := exec_same w x c d
  unfold Compiled
  rw [h1, h2, h3]
  exact h

/-- The commands of a test do not touch the files of others. -/
theorem exec_other (w : World) (x y : Test) (h : x ≠ y) (c : Cmd) (d : Dir) :
    (exec w x d c).2.testInfo y = d.testInfo y ∧ (exec w x d c).2.info y = d.info y ∧ (exec w x d c).2.filtered y = d.filtered y := by
  have h' : y ≠ x := fun e => h e.symm
  cases c with
  | zero => exact ⟨rfl, rfl, rfl⟩
  | initial => exact ⟨rfl, rfl, rfl⟩
  | run => dsimp only [exec]; split <;> exact ⟨rfl, rfl, rfl⟩
  | capture => dsimp only [exec]; split <;> refine ⟨?_, rfl, rfl⟩ <;> simp [upd, h']
  | combine => dsimp only [exec]; split <;> refine ⟨rfl, ?_, rfl⟩ <;> simp [upd, h']
  | extract => dsimp only [exec]; split <;> refine ⟨rfl, rfl, ?_⟩ <;> simp [upd, h']

/-- The baseline has no counts. -/
def ZeroBase (d : Dir) : Prop := ∀ b, d.baseline = some b → ∀ l, count b l = 0

theorem ZeroBase.exec {w : World} {d : Dir} (h : ZeroBase d) (x : Test) (c : Cmd) : ZeroBase (exec w x d c).2 := by
  cases c with
  | zero => exact h
  | initial =>
    intro b hb l
    injection hb with hb
    rw [← hb, count_sum, List.map_map]
    exact sum_map_zero _ _ fun y _ => count_initial w d y l
  | run => dsimp only [Coverage.exec]; split <;> exact h
  | capture => dsimp only [Coverage.exec]; split <;> exact h
  | combine => dsimp only [Coverage.exec]; split <;> exact h
  | extract => dsimp only [Coverage.exec]; split <;> exact h

/-- Commands that all succeed. -/
inductive Runs (w : World) : List (Test × Cmd) → Dir → Dir → Prop
  | nil (d) : Runs w [] d d
  | cons (x c cs d d') : (exec w x d c).1 = true → Runs w cs (exec w x d c).2 d' → Runs w ((x, c) :: cs) d d'

theorem runs_of_ok (w : World) (cs : List (Test × Cmd)) (d : Dir) (h : (execAll w cs d).1 = true) : Runs w cs d (execAll w cs d).2 := by
  induction cs generalizing d with
  | nil => exact .nil d
  | cons e cs ih =>
    obtain ⟨x, c⟩ := e
    unfold execAll at h ⊢
    cases he : exec w x d c with
    | mk b d' =>
      rw [he] at h
      cases b with
      | false => cases h
      | true =>
        refine .cons x c cs d _ (by rw [he]) ?_
        rw [he]
        exact ih d' h

theorem Runs.append {w : World} {as bs : List (Test × Cmd)} {d d' : Dir} (h : Runs w (as ++ bs) d d') :
    ∃ e, Runs w as d e ∧ Runs w bs e d' := by
  induction as generalizing d with
  | nil => exact ⟨d, .nil d, h⟩
  | cons a as ih =>
    cases h with
    | cons x c _ _ _ h1 h2 =>
      obtain ⟨e, h3, h4⟩ := ih h2
      exact ⟨e, .cons x c as d e h1 h3, h4⟩

theorem Runs.keep {w : World} {cs : List (Test × Cmd)} {d d' : Dir} (h : Runs w cs d d') :
    d'.source = d.source ∧ (Compiled w d → Compiled w d') ∧ (ZeroBase d → ZeroBase d') ∧
      ∀ y, (∀ e ∈ cs, e.1 ≠ y) → d'.testInfo y = d.testInfo y ∧ d'.info y = d.info y ∧ d'.filtered y = d.filtered y := by
  induction h with
  | nil d => exact ⟨rfl, id, id, fun _ _ => ⟨rfl, rfl, rfl⟩⟩
  | cons x c cs d d' _ _ ih =>
    refine ⟨ih.1.trans (exec_same w x c d).1, fun hc => ih.2.1 (hc.exec x c), fun hz => ih.2.2.1 (hz.exec x c), fun y hy => ?_⟩
    obtain ⟨a1, a2, a3⟩ := ih.2.2.2 y fun e he => hy e (List.mem_cons_of_mem _ he)
    obtain ⟨b1, b2, b3⟩ := exec_other w x y (hy _ (List.mem_cons_self ..)) c d
    exact ⟨a1.trans b1, a2.trans b2, a3.trans b3⟩

theorem Counted.exec {w : World} {d : Dir} {acc : List Test} (hc : Compiled w d) (h : Counted w d acc) (x : Test) (hx : x ∈ w.tests) (c : Cmd) :
    Counted w (exec w x d c).2 (match c with | .zero => [] | .run => acc ++ [x] | _ => acc) := by
  cases c with
  | zero => exact ⟨fun _ h => (nomatch h), fun y _ => ⟨fun _ => rfl, fun h => absurd h (by simp)⟩⟩
  | initial => exact h
  | capture => dsimp only [Coverage.exec]; split <;> exact h
  | combine => dsimp only [Coverage.exec]; split <;> exact h
  | extract => dsimp only [Coverage.exec]; split <;> exact h
  | run =>
    dsimp only [Coverage.exec]
    rw [(hc x hx).1]
    refine ⟨fun y hy => ?_, fun y hy => ?_⟩
    · rcases List.mem_append.1 hy with hy | hy
      · exact h.1 y hy
      · rw [List.mem_singleton.1 hy]; exact hx
    · simp only [List.count_append, runTest]
      by_cases hyx : y = x
      · subst hyx
        rw [upd_same, List.count_singleton_self]
        refine ⟨fun h => by omega, fun _ => ⟨_, rfl, fun l => ?_⟩⟩
        by_cases h0 : acc.count y = 0
        · rw [(h.2 y hy).1 h0, h0]
          simp
        · obtain ⟨c, hg, hc'⟩ := (h.2 y hy).2 (by omega)
          rw [hg]
          simp only [if_true]
          rw [hc', Nat.add_mul, Nat.one_mul]
      · rw [upd_other _ _ _ _ hyx, List.count_singleton, beq_false_of_ne (fun e => hyx e.symm)]
        simpa using h.2 y hy

theorem Runs.counted {w : World} {cs : List (Test × Cmd)} {d d' : Dir} (h : Runs w cs d d') (hc : Compiled w d)
    (hx : ∀ e ∈ cs, e.1 ∈ w.tests) (acc : List Test) (ha : Counted w d acc) :
    Counted w d' (cs.foldl (fun acc e => match e.2 with | .zero => [] | .run => acc ++ [e.1] | _ => acc) acc) := by
  induction h generalizing acc with
  | nil d => exact ha
  | cons x c cs d d' _ _ ih =>
    exact ih (hc.exec x c) (fun e he => hx e (List.mem_cons_of_mem _ he)) _ (ha.exec hc x (hx _ (List.mem_cons_self ..)) c)

/-- A sum over tests, each as often as it was run, is a sum over the runs. -/
theorem sum_count (xs acc : List Test) (hn : xs.Nodup) (hs : ∀ y ∈ acc, y ∈ xs) (f : Test → Nat) :
    (xs.map fun y => acc.count y * f y).sum = (acc.map f).sum := by
  induction acc with
  | nil => exact sum_map_zero _ _ fun y _ => by simp
  | cons a acc ih =>
    rw [List.map_cons, List.sum_cons, ← ih fun y hy => hs y (List.mem_cons_of_mem _ hy)]
    have e : ∀ y, (a :: acc).count y * f y = (if y = a then f a else 0) + acc.count y * f y := by
      intro y
      rw [List.count_cons]
      by_cases h : y = a
      · subst h; simp [Nat.add_mul, Nat.add_comm]
      · rw [beq_false_of_ne (fun e => h e.symm)]; simp [h]
    have e2 : (xs.map fun y => (a :: acc).count y * f y).sum = (xs.map fun y => if y = a then f a else 0).sum + (xs.map fun y => acc.count y * f y).sum := by
      clear ih hn hs
      induction xs with
      | nil => rfl
      | cons y ys ih => rw [List.map_cons, List.sum_cons, ih, e y, List.map_cons, List.map_cons, List.sum_cons, List.sum_cons]; omega
    rw [e2, sum_one xs hn a (hs a (List.mem_cons_self ..)) _ fun y _ h => if_neg h, if_pos rfl]

/-- What the report of a test contains if make runs several jobs: the executions of all the runs since the counters were last removed
when it was taken. It is right whatever the tests execute exactly if there was one, of the test itself. -/
theorem C112_jobs (w : World) (hn : w.tests.Nodup) (d : Dir) (hc : Compiled w d) (hz : ZeroBase d) (sched : List (Test × Cmd))
    (hs : Interleaving w sched) (ok : (execAll w sched d).1 = true) (x : Test) (hx : x ∈ w.tests) :
    ∃ pre post i, sched = pre ++ (x, .capture) :: post ∧ (x, .capture) ∉ pre ++ post ∧ (execAll w sched d).2.filtered x = some i ∧
      (∀ l, count i l = if w.lib l then
        ((since pre).map fun y => if w.lines y (d.source y) l then w.hits y (d.source y) l else 0).sum else 0) ∧
      ((∀ f : Test → Nat, ((since pre).map f).sum = f x) ↔ since pre = [x]) := by
  have hr := runs_of_ok w sched d ok
  generalize (execAll w sched d).2 = d' at *
  have hf := hs.2 x hx
  simp only [recipe, List.map_cons, List.map_nil] at hf
  obtain ⟨p1, q1, rfl, n1, -, hf⟩ := List.filter_eq_cons_iff.1 hf
  obtain ⟨p2, q2, rfl, n2, -, hf⟩ := List.filter_eq_cons_iff.1 hf
  obtain ⟨p3, q3, rfl, n3, -, hf⟩ := List.filter_eq_cons_iff.1 hf
  obtain ⟨p4, q4, rfl, n4, -, hf⟩ := List.filter_eq_cons_iff.1 hf
  obtain ⟨p5, q5, rfl, n5, -, hf⟩ := List.filter_eq_cons_iff.1 hf
  obtain ⟨p6, p7, rfl, n6, -, hf⟩ := List.filter_eq_cons_iff.1 hf
  have n7 := List.filter_eq_nil_iff.1 hf
  simp only [decide_eq_true_eq] at n1 n2 n3 n4 n5 n6 n7
  have hin := hs.1
  refine ⟨p1 ++ (x, .zero) :: (p2 ++ (x, .initial) :: (p3 ++ (x, .run) :: p4)), p5 ++ (x, .combine) :: (p6 ++ (x, .extract) :: p7), ?_⟩
  have hsince : since (p1 ++ (x, .zero) :: (p2 ++ (x, .initial) :: (p3 ++ (x, .run) :: p4))) =
      (p2 ++ (x, .initial) :: (p3 ++ (x, .run) :: p4)).foldl
        (fun acc e => match e.2 with | .zero => [] | .run => acc ++ [e.1] | _ => acc) [] := by
    unfold since
    rw [List.foldl_append, List.foldl_cons]
  -- the run
  rw [show p1 ++ (x, Cmd.zero) :: (p2 ++ (x, .initial) :: (p3 ++ (x, .run) :: (p4 ++ (x, .capture) :: (p5 ++ (x, .combine) ::
      (p6 ++ (x, .extract) :: p7))))) = p1 ++ (x, Cmd.zero) :: ((p2 ++ (x, .initial) :: (p3 ++ (x, .run) :: p4)) ++ (x, .capture) ::
      (p5 ++ (x, .combine) :: (p6 ++ (x, .extract) :: p7))) by simp] at hr hin ⊢
  generalize hq : p2 ++ (x, Cmd.initial) :: (p3 ++ (x, .run) :: p4) = q at *
  obtain ⟨e1, r1, hr⟩ := hr.append
  cases hr with
  | cons _ _ _ _ _ ok1 hr =>
  obtain ⟨e2, r2, hr⟩ := hr.append
  cases hr with
  | cons _ _ _ _ _ ok2 hr =>
  obtain ⟨e3, r3, hr⟩ := hr.append
  cases hr with
  | cons _ _ _ _ _ ok3 hr =>
  obtain ⟨e4, r4, hr⟩ := hr.append
  cases hr with
  | cons _ _ _ _ _ ok4 r5 =>
  have hc1 := r1.keep.2.1 hc
  have hcz : Counted w (exec w x e1 .zero).2 [] := ⟨fun _ h => (nomatch h), fun y _ => ⟨fun _ => rfl, fun h => absurd h (by simp)⟩⟩
  have hcnt := r2.counted (hc1.exec x .zero) (fun e he => hin e (List.mem_append_right _ (List.mem_cons_of_mem _ (List.mem_append_left _ he)))) [] hcz
  rw [← hsince] at hcnt
  have hsrc : e2.source = d.source := r2.keep.1.trans ((exec_same w x .zero e1).1.trans r1.keep.1)
  have hc2 := r2.keep.2.1 (hc1.exec x .zero)
  -- the capture
  dsimp only [exec] at ok2 r3
  split at ok2
  case isFalse => cases ok2
  case isTrue hany =>
  rw [if_pos hany] at r3
  have ht : e3.testInfo x = some (sumInfo (w.tests.map (captureOf w e2))) := (r3.keep.2.2.2 x n5).1.trans (upd_same _ _ _)
  have hz3 : ZeroBase e3 := r3.keep.2.2.1 (r2.keep.2.2.1 (r1.keep.2.2.1 hz))
  dsimp only [exec] at ok3 r4
  rw [ht] at ok3 r4
  cases hb : e3.baseline with
  | none => rw [hb] at ok3; cases ok3
  | some b =>
  rw [hb] at r4
  have hi : e4.info x = some (b.add (sumInfo (w.tests.map (captureOf w e2)))) := (r4.keep.2.2.2 x n6).2.1.trans (upd_same _ _ _)
  dsimp only [exec] at ok4 r5
  rw [hi] at r5
  have hfil : d'.filtered x = some (extract w (b.add (sumInfo (w.tests.map (captureOf w e2))))) :=
    (r5.keep.2.2.2 x n7).2.2.trans (upd_same _ _ _)
  refine ⟨_, by simp, ?_, hfil, fun l => ?_, fun h => ?_, fun h f => by rw [h]; simp⟩
  · simp only [← hq, List.mem_append, List.mem_cons, Prod.mk.injEq, reduceCtorEq, and_false, false_or]
    rintro ((h | h | h | h) | h | h | h)
    · exact n1 _ h rfl
    · exact n2 _ h rfl
    · exact n3 _ h rfl
    · exact n4 _ h rfl
    · exact n5 _ h rfl
    · exact n6 _ h rfl
    · exact n7 _ h rfl
  · rw [count_extract, count_add, hz3 b hb l, Nat.zero_add, count_sum, List.map_map, ← sum_count w.tests _ hn hcnt.1]
    refine congrArg (fun n => if w.lib l = true then n else 0) (sum_map_congr _ _ _ fun y hy => ?_)
    simp only [Function.comp, count, captureOf]
    rw [(hc2 y hy).2, ← hsrc]
    by_cases h0 : (since (p1 ++ (x, Cmd.zero) :: q)).count y = 0
    · rw [(hcnt.2 y hy).1 h0, h0]
      simp
    · obtain ⟨c, hg, hcl⟩ := (hcnt.2 y hy).2 (by omega)
      rw [hg]
      simp only [if_true]
      rw [hcl]
      split <;> simp
  · generalize since (p1 ++ (x, Cmd.zero) :: q) = ys at *
    have hl := h fun _ => 1
    have hl' : ys.length = 1 := by
      have : (ys.map fun _ => 1).sum = ys.length := by
        clear h hl hcnt hsince
        induction ys with
        | nil => rfl
        | cons y ys ih => rw [List.map_cons, List.sum_cons, ih, List.length_cons]; omega
      omega
    match ys, hl' with
    | [y], _ =>
      have := h fun z => if z = x then 1 else 0
      simp only [List.map_cons, List.map_nil, List.sum_cons, List.sum_nil, if_true] at this
      split at this
      · rename_i e; rw [e]
      · omega

/-! ### What goes wrong -/

/-- Two tests; both have code for line 0, and the first also for line 1. Each executes its lines once. -/
def twoTests : World where
  tests := ["a", "b"]
  lines x _ l := l = 0 || (l = 1 && x = "a")
  hits _ v _ := v + 1
  passes _ _ := true
  lib _ := true
  cleanKeeps := false

/-- Two jobs: the counters of the first test are removed before they are captured. -/
def twoJobs : List (Test × Cmd) :=
  [("a", .zero), ("a", .initial), ("a", .run), ("b", .zero), ("b", .initial), ("b", .run), ("a", .capture), ("b", .capture),
   ("a", .combine), ("b", .combine), ("a", .extract), ("b", .extract)]

/-- Both tests are compiled. -/
def compiledDir : Dir := compile "b" (compile "a" (Dir.new fun _ => 0))

/-- C112: the property as stated is false. Line 1 is only executed by the first test, and with two jobs the report of neither test says that
it was executed, though everything succeeds. With one job, after the sources were changed, building `cov_all` again succeeds but leaves
`coverage.info` as it was. -/
theorem C112_full_statement_fails : ¬ C112_Statement ∧
    ((execAll twoTests twoJobs compiledDir).1 = true ∧
      ((execAll twoTests twoJobs compiledDir).2.filtered "a").map (· 1) = some (some 0) ∧
      ((execAll twoTests twoJobs compiledDir).2.filtered "b").map (· 1) = some (some 0)) ∧
    ((history twoTests [.covAll [.report "a", .report "b"], .edit ["a"], .covAll [.report "a", .report "b"]] (Dir.new fun _ => 0)).total.map (· 1) =
        some (some 1) ∧
      ¬ Tells twoTests (history twoTests [.covAll [.report "a", .report "b"], .edit ["a"], .covAll [.report "a", .report "b"]] (Dir.new fun _ => 0))) := by
  have j : (execAll twoTests twoJobs compiledDir).1 = true ∧
      ((execAll twoTests twoJobs compiledDir).2.filtered "a").map (· 1) = some (some 0) ∧
      ((execAll twoTests twoJobs compiledDir).2.filtered "b").map (· 1) = some (some 0) := by decide +kernel
  have c : (history twoTests [.covAll [.report "a", .report "b"], .edit ["a"], .covAll [.report "a", .report "b"]] (Dir.new fun _ => 0)).total.map (· 1) =
        some (some 1) := by decide +kernel
  refine ⟨fun h => ?_, j, c, ?_⟩
  · obtain ⟨i, hi, hr⟩ := (h twoTests (by decide)).2 compiledDir (by decide) twoJobs ⟨by decide, by decide⟩ j.1 "a" (by decide)
    have h1 := j.2.1
    rw [hi] at h1
    have h2 := hr.counts 1
    simp only [Option.map_some, Option.some.injEq] at h1
    simp only [count, h1] at h2
    revert h2
    decide
  · rintro ⟨t, ht, hl⟩
    rw [ht] at c
    have h1 := hl 1
    simp only [Option.map_some, Option.some.injEq] at c
    rw [c] at h1
    revert h1
    decide +kernel

/-- The hypotheses can be met: with one job the reports are right. -/
example : Covers twoTests [.report "b", .compile "a", .report "a"] ∧
    (covAll twoTests [.report "b", .compile "a", .report "a"] (Dir.new fun _ => 0)).1 = true ∧
    (covAll twoTests [.report "b", .compile "a", .report "a"] (Dir.new fun _ => 0)).2.total.map (fun t => (t 0, t 1, t 2)) =
      some (some 2, some 1, none) := by
  refine ⟨⟨fun x hx => ?_, by decide⟩, by decide +kernel, by decide +kernel⟩
  simp at hx
  rcases hx with (rfl | rfl) | rfl <;> decide

example : since (twoJobs.take 6) = ["b"] ∧ Interleaving twoTests twoJobs ∧ Compiled twoTests compiledDir := by
  refine ⟨by decide, ⟨by decide, by decide⟩, by unfold Compiled; decide⟩

end Uavcan.Coverage
