import Verif.Model.Coverage

/-!
# Lemmas about the coverage reports
-/

namespace Uavcan.Coverage

/-- The count a report gives a line; a line that is not listed was not executed. -/
def count (i : Info) (l : Loc) : Nat := (i l).getD 0

theorem upd_same {α : Type} (f : Test → α) (x : Test) (a : α) : upd f x a x = a := by simp [upd]

theorem upd_other {α : Type} (f : Test → α) (x y : Test) (a : α) (h : y ≠ x) : upd f x a y = f y := by simp [upd, h]

theorem count_add (a b : Info) (l : Loc) : count (a.add b) l = count a l + count b l := by
  unfold count Info.add
  cases a l <;> cases b l <;> simp [addCount]

theorem isSome_add (a b : Info) (l : Loc) : ((a.add b) l).isSome = ((a l).isSome || (b l).isSome) := by
  unfold Info.add
  cases a l <;> cases b l <;> simp [addCount]

theorem count_sum (is : List Info) (l : Loc) : count (sumInfo is) l = (is.map fun i => count i l).sum := by
  induction is with
  | nil => rfl
  | cons i is ih => rw [show sumInfo (i :: is) = Info.add i (sumInfo is) from rfl, count_add, ih]; simp

theorem isSome_sum (is : List Info) (l : Loc) : ((sumInfo is) l).isSome = true ↔ ∃ i ∈ is, (i l).isSome = true := by
  induction is with
  | nil => simp [sumInfo]
  | cons i is ih =>
    rw [show sumInfo (i :: is) = Info.add i (sumInfo is) from rfl, isSome_add, Bool.or_eq_true, ih]
    simp

theorem count_extract (w : World) (i : Info) (l : Loc) : count (extract w i) l = if w.lib l then count i l else 0 := by
  unfold count extract
  split <;> simp

theorem isSome_extract (w : World) (i : Info) (l : Loc) : ((extract w i) l).isSome = (w.lib l && (i l).isSome) := by
  unfold extract
  split <;> simp_all

theorem sum_map_zero {α : Type} (xs : List α) (f : α → Nat) (h : ∀ y ∈ xs, f y = 0) : (xs.map f).sum = 0 := by
  induction xs with
  | nil => rfl
  | cons y ys ih =>
    rw [List.map_cons, List.sum_cons, h y (List.mem_cons_self ..), ih fun z hz => h z (List.mem_cons_of_mem _ hz)]

theorem sum_map_congr {α : Type} (xs : List α) (f g : α → Nat) (h : ∀ y ∈ xs, f y = g y) : (xs.map f).sum = (xs.map g).sum := by
  rw [List.map_congr_left h]

/-- A sum over different tests of which only one counts. -/
theorem sum_one (xs : List Test) (hn : xs.Nodup) (x : Test) (hx : x ∈ xs) (f : Test → Nat) (h : ∀ y ∈ xs, y ≠ x → f y = 0) :
    (xs.map f).sum = f x := by
  induction xs with
  | nil => cases hx
  | cons y ys ih =>
    rw [List.nodup_cons] at hn
    rw [List.map_cons, List.sum_cons]
    by_cases hxy : y = x
    · subst hxy
      rw [sum_map_zero _ _ fun z hz => h z (List.mem_cons_of_mem _ hz) fun e => hn.1 (e ▸ hz)]
      omega
    · rw [h y (List.mem_cons_self ..) hxy, ih hn.2 ((List.mem_cons.1 hx).resolve_left fun e => hxy e.symm)
        fun z hz => h z (List.mem_cons_of_mem _ hz)]
      omega

theorem count_initial (w : World) (d : Dir) (x : Test) (l : Loc) : count (initialOf w d x) l = 0 := by
  unfold count initialOf
  cases d.gcno x with
  | none => rfl
  | some v => simp only; split <;> rfl

theorem isSome_initial (w : World) (d : Dir) (x : Test) (l : Loc) :
    (initialOf w d x l).isSome = true ↔ ∃ v, d.gcno x = some v ∧ w.lines x v l = true := by
  unfold initialOf
  cases d.gcno x with
  | none => simp
  | some v => simp

/-- What the commands of one test leave alone. -/
structure Frame (x : Test) (d d' : Dir) : Prop where
  source : d'.source = d.source
  exe : d'.exe = d.exe
  gcno : d'.gcno = d.gcno
  fresh : d'.fresh = d.fresh
  all : d'.all = d.all
  total : d'.total = d.total
  filtered : ∀ y, y ≠ x → d'.filtered y = d.filtered y

/-- The lines that are listed for a directory. -/
def Listed (w : World) (d : Dir) (l : Loc) : Prop := ∃ y ∈ w.tests, ∃ v, d.gcno y = some v ∧ w.lines y v l = true

theorem execAll_ok (w : World) (x : Test) (c : Cmd) (cs : List (Test × Cmd)) (d d' : Dir) (h : exec w x d c = (true, d')) :
    execAll w ((x, c) :: cs) d = execAll w cs d' := by
  rw [execAll, h]

/-- The commands of a test that passes. -/
theorem recipe_ok (w : World) (hn : w.tests.Nodup) (x : Test) (hx : x ∈ w.tests) (d : Dir) (v : Nat) (he : d.exe x = some v)
    (hg : d.gcno x = some v) (hp : w.passes x v = true) :
    ∃ d' i, execAll w (recipe.map fun c => (x, c)) d = (true, d') ∧ Frame x d d' ∧ d'.filtered x = some i ∧
      (∀ l, count i l = if w.lib l && w.lines x v l then w.hits x v l else 0) ∧
      ∀ l, (i l).isSome = true ↔ w.lib l = true ∧ Listed w d l := by
  let d1 : Dir := { d with gcda := fun _ => none }
  let d2 : Dir := { d1 with baseline := some (sumInfo (w.tests.map (initialOf w d1))) }
  let d3 : Dir := runTest w d2 x v
  have ha : (w.tests.any fun y => (d3.gcda y).isSome) = true := List.any_eq_true.2 ⟨x, hx, by simp [d3, runTest, upd]⟩
  let t : Info := sumInfo (w.tests.map (captureOf w d3))
  let b : Info := sumInfo (w.tests.map (initialOf w d1))
  let d4 : Dir := { d3 with
    testInfo := upd d3.testInfo x (some t)
    info := upd d3.info x (some (b.add t))
    filtered := upd d3.filtered x (some (Coverage.extract w (b.add t))) }
  refine ⟨d4, Coverage.extract w (b.add t), ?_, ⟨rfl, rfl, rfl, rfl, rfl, rfl, ?_⟩, ?_, ?_, ?_⟩
  · simp only [recipe, List.map_cons, List.map_nil]
    rw [execAll_ok w x .zero _ d d1 rfl, execAll_ok w x .initial _ d1 d2 rfl, execAll_ok w x .run _ d2 d3 ?_,
      execAll_ok w x .capture _ d3 { d3 with testInfo := upd d3.testInfo x (some t) } ?_,
      execAll_ok w x .combine _ _ { d3 with testInfo := upd d3.testInfo x (some t), info := upd d3.info x (some (b.add t)) } ?_,
      execAll_ok w x .extract _ _ d4 ?_]
    · rfl
    · simp only [exec, upd_same]; rfl
    · have : d3.baseline = some b := rfl
      simp only [exec, upd_same, this]
    · simp only [exec]; rw [if_pos ha]
    · have e : d2.exe x = some v := he
      simp only [exec, e, hp]; rfl
  · intro y hy
    exact upd_other _ _ _ _ hy
  · exact upd_same _ _ _
  · intro l
    have hb : count b l = 0 := by
      rw [count_sum, List.map_map]
      exact sum_map_zero _ _ fun y _ => count_initial w d1 y l
    have ht : count t l = if w.lines x v l then w.hits x v l else 0 := by
      rw [count_sum, List.map_map, sum_one w.tests hn x hx]
      · simp only [Function.comp, count, captureOf, d3, runTest, upd_same, d2, d1, hg]
        split <;> simp
      · intro y _ hy
        simp [count, captureOf, d3, runTest, upd_other _ _ _ _ hy, d2, d1]
    rw [count_extract, count_add, hb, ht]
    cases w.lib l <;> simp
  · intro l
    rw [isSome_extract, isSome_add, Bool.and_eq_true, Bool.or_eq_true, isSome_sum, isSome_sum]
    refine and_congr_right fun _ => ?_
    have e1 : (∃ i ∈ w.tests.map (initialOf w d1), (i l).isSome = true) ↔ Listed w d l := by
      unfold Listed
      constructor
      · rintro ⟨_, h, hi⟩
        obtain ⟨y, hy, rfl⟩ := List.mem_map.1 h
        exact ⟨y, hy, (isSome_initial w d1 y l).1 hi⟩
      · rintro ⟨y, hy, h⟩
        exact ⟨_, List.mem_map.2 ⟨y, hy, rfl⟩, (isSome_initial w d1 y l).2 h⟩
    rw [e1]
    refine ⟨fun h => h.elim id ?_, Or.inl⟩
    rintro ⟨_, h, hi⟩
    obtain ⟨y, hy, rfl⟩ := List.mem_map.1 h
    refine ⟨y, hy, ?_⟩
    have e3 : d3.gcno = d.gcno := rfl
    unfold captureOf at hi
    rw [e3] at hi
    split at hi
    · rename_i hgc
      refine ⟨_, hgc, ?_⟩
      split at hi
      · assumption
      · cases hi
    · cases hi

/-- The commands of a test that fails. -/
theorem recipe_fail (w : World) (x : Test) (d : Dir) (v : Nat) (he : d.exe x = some v) (hp : w.passes x v = false) :
    ∃ d', execAll w (recipe.map fun c => (x, c)) d = (false, d') ∧ Frame x d d' ∧ d'.filtered = d.filtered := by
  refine ⟨runTest w { d with gcda := fun _ => none, baseline := some (sumInfo (w.tests.map (initialOf w { d with gcda := fun _ => none }))) } x v, ?_,
    ⟨rfl, rfl, rfl, rfl, rfl, rfl, fun _ _ => rfl⟩, rfl⟩
  simp only [recipe, List.map_cons, List.map_nil, execAll, exec]
  rw [he]
  simp only
  rw [hp]

/-- That a report gives the counts of a test of this version, lists its lines of the library and only lines of the library. -/
structure Right (w : World) (x : Test) (v : Nat) (i : Info) : Prop where
  counts : ∀ l, count i l = if w.lib l && w.lines x v l then w.hits x v l else 0
  listed : ∀ l, w.lib l = true → w.lines x v l = true → (i l).isSome = true
  only : ∀ l, (i l).isSome = true → w.lib l = true

/-- What holds of every directory. -/
structure Inv (w : World) (d : Dir) : Prop where
  notes : ∀ x v, d.exe x = some v → d.gcno x = some v
  fresh : ∀ x ∈ w.tests, d.fresh x = true → ∃ v i, d.exe x = some v ∧ w.passes x v = true ∧ d.filtered x = some i ∧ Right w x v i

theorem Inv.new (w : World) (s : Test → Nat) : Inv w (Dir.new s) :=
  ⟨fun _ _ h => (nomatch h), fun _ _ h => (nomatch h)⟩

theorem Inv.compile {w : World} {d : Dir} (h : Inv w d) (x : Test) : Inv w (Coverage.compile x d) := by
  unfold Coverage.compile
  split
  · exact h
  · refine ⟨fun y v hv => ?_, fun y hy hf => ?_⟩
    · by_cases hyx : y = x
      · subst hyx
        simpa only [upd_same] using hv
      · simp only [upd_other _ _ _ _ hyx] at hv ⊢
        exact h.notes y v hv
    · by_cases hyx : y = x
      · subst hyx
        simp [upd_same] at hf
      · simp only [upd_other _ _ _ _ hyx] at hf ⊢
        exact h.fresh y hy hf

theorem compile_spec (x : Test) (d : Dir) : (compile x d).exe x = some (d.source x) ∧ (compile x d).source = d.source ∧
    (compile x d).all = d.all ∧ (compile x d).total = d.total ∧ (compile x d).filtered = d.filtered ∧ (compile x d).gcda = d.gcda := by
  unfold compile
  split
  · exact ⟨by assumption, rfl, rfl, rfl, rfl, rfl⟩
  · exact ⟨upd_same _ _ _, rfl, rfl, rfl, rfl, rfl⟩

/-- Compiling changes nothing for tests that are up to date. -/
theorem compile_uptodate (x y : Test) (d : Dir) (hy : d.exe y = some (d.source y)) :
    (compile x d).exe y = d.exe y ∧ (compile x d).gcno y = d.gcno y ∧ (compile x d).fresh y = d.fresh y := by
  unfold compile
  split
  · exact ⟨rfl, rfl, rfl⟩
  · rename_i hx
    have : y ≠ x := fun e => hx (e ▸ hy)
    simp only [upd_other _ _ _ _ this, and_self]

/-- What building `run_X_with_lcov` does. -/
theorem report_spec (w : World) (hn : w.tests.Nodup) (x : Test) (hx : x ∈ w.tests) (d : Dir) (h : Inv w d) :
    Inv w (report w x d).2 ∧ (report w x d).1 = w.passes x (d.source x) ∧ (report w x d).2.source = d.source ∧
      (report w x d).2.all = d.all ∧ (report w x d).2.total = d.total ∧
      (report w x d).2.exe x = some (d.source x) ∧ ((report w x d).1 = true → (report w x d).2.fresh x = true) ∧
      (∀ y, y ≠ x → (report w x d).2.filtered y = d.filtered y) ∧
      (∀ y, d.exe y = some (d.source y) → (report w x d).2.exe y = d.exe y ∧ (report w x d).2.gcno y = d.gcno y ∧
        (y ≠ x → (report w x d).2.fresh y = d.fresh y) ∧ (d.fresh y = true → (report w x d).2.filtered y = d.filtered y)) := by
  have hc := h.compile x
  obtain ⟨c1, c2, c3, c4, c5, _⟩ := compile_spec x d
  have c6 := fun y => compile_uptodate x y d
  unfold report
  generalize compile x d = e at *
  simp only
  split
  · rename_i hf
    obtain ⟨v, i, hv, hp, hi, hr⟩ := hc.fresh x hx hf
    have : v = d.source x := by rw [c1] at hv; injection hv with hv; exact hv.symm
    subst this
    refine ⟨hc, hp.symm, c2, c3, c4, c1, fun _ => hf, fun y _ => by rw [c5], fun y hy => ?_⟩
    exact ⟨(c6 y hy).1, (c6 y hy).2.1, fun _ => (c6 y hy).2.2, fun _ => by rw [c5]⟩
  · rename_i hf
    cases hp : w.passes x (d.source x)
    · obtain ⟨d', he, hF, hfil⟩ := recipe_fail w x e (d.source x) c1 hp
      rw [he]
      refine ⟨⟨?_, ?_⟩, rfl, hF.source.trans c2, hF.all.trans c3, hF.total.trans c4, by (simp only; rw [hF.exe, c1]), fun h => (nomatch h),
        fun y _ => by (simp only; rw [hfil, c5]), fun y hy => ⟨by (simp only; rw [hF.exe, (c6 y hy).1]), by (simp only; rw [hF.gcno, (c6 y hy).2.1]),
          fun _ => by (simp only; rw [hF.fresh, (c6 y hy).2.2]), fun _ => by (simp only; rw [hfil, c5])⟩⟩
      · intro y v; simp only; rw [hF.exe, hF.gcno]; exact hc.notes y v
      · intro y hy; simp only; rw [hF.fresh, hF.exe, hfil]; exact hc.fresh y hy
    · obtain ⟨d', i, he, hF, hi, hcnt, hl⟩ := recipe_ok w hn x hx e (d.source x) c1 (hc.notes _ _ c1) hp
      rw [he]
      refine ⟨⟨?_, ?_⟩, rfl, hF.source.trans c2, hF.all.trans c3, hF.total.trans c4, by (simp only; rw [hF.exe, c1]), fun _ => upd_same _ _ _,
        fun y hy => by (simp only; rw [hF.filtered y hy, c5]), fun y hy => ⟨by (simp only; rw [hF.exe, (c6 y hy).1]), by (simp only; rw [hF.gcno, (c6 y hy).2.1]),
          fun hyx => by (simp only; rw [upd_other _ _ _ _ hyx, hF.fresh, (c6 y hy).2.2]), fun hfy => ?_⟩⟩
      · intro y v; simp only; rw [hF.exe, hF.gcno]; exact hc.notes y v
      · intro y hy; simp only
        by_cases hyx : y = x
        · subst hyx
          intro _
          refine ⟨d.source y, i, by rw [hF.exe, c1], hp, hi, hcnt, fun l hlib hline => ?_, fun l hs => ((hl l).1 hs).1⟩
          exact (hl l).2 ⟨hlib, y, hy, _, hc.notes _ _ c1, hline⟩
        · rw [upd_other _ _ _ _ hyx, hF.fresh, hF.exe, hF.filtered y hyx]; exact hc.fresh y hy
      · simp only
        by_cases hyx : y = x
        · subst hyx
          exact absurd ((c6 y hy).2.2.trans hfy) hf
        · rw [hF.filtered y hyx, c5]

theorem compile_noop (x : Test) (d : Dir) (h : d.exe x = some (d.source x)) : compile x d = d := by
  unfold compile; rw [if_pos h]

/-- A list of builds of existing tests. -/
def EvsOf (w : World) (es : List Ev) : Prop := ∀ x, (.report x ∈ es ∨ .compile x ∈ es) → x ∈ w.tests

/-- What a list of builds does. -/
theorem runEvs_spec (w : World) (hn : w.tests.Nodup) (es : List Ev) (he : EvsOf w es) (d : Dir) (h : Inv w d) :
    Inv w (runEvs w es d).2 ∧ (runEvs w es d).2.source = d.source ∧ (runEvs w es d).2.all = d.all ∧
      (runEvs w es d).2.total = d.total ∧ ((runEvs w es d).1 = true ↔ ∀ x, .report x ∈ es → w.passes x (d.source x) = true) ∧
      (∀ y, d.exe y = some (d.source y) → (runEvs w es d).2.exe y = some (d.source y) ∧
        (d.fresh y = true → (runEvs w es d).2.fresh y = true)) ∧
      ((runEvs w es d).1 = true → ∀ x, .report x ∈ es →
        (runEvs w es d).2.exe x = some (d.source x) ∧ (runEvs w es d).2.fresh x = true) := by
  induction es generalizing d with
  | nil => exact ⟨h, rfl, rfl, rfl, by simp [runEvs], fun y hy => ⟨hy, id⟩, fun _ x hx => (nomatch hx)⟩
  | cons e es ih =>
    have he' : EvsOf w es := fun x hx => he x (hx.imp (List.mem_cons_of_mem _) (List.mem_cons_of_mem _))
    cases e with
    | compile x =>
      obtain ⟨c1, c2, c3, c4, c5, _⟩ := compile_spec x d
      have c6 := fun y => compile_uptodate x y d
      obtain ⟨i1, i2, i3, i4, i5, i6, i7⟩ := ih he' (compile x d) (h.compile x)
      rw [c2] at i2 i5 i6 i7
      unfold runEvs
      refine ⟨i1, i2, i3.trans c3, i4.trans c4, by rw [i5]; simp, fun y hy => ?_, fun ho y hy => ?_⟩
      · have := i6 y ((c6 y hy).1.trans hy)
        exact ⟨this.1, fun hf => this.2 ((c6 y hy).2.2.trans hf)⟩
      · refine i7 ho y ?_
        simpa using hy
    | report x =>
      obtain ⟨r1, r2, r3, r4, r5, r6, r7, r8, r9⟩ := report_spec w hn x (he x (.inl (List.mem_cons_self ..))) d h
      unfold runEvs
      generalize report w x d = r at *
      obtain ⟨b, e⟩ := r
      simp only at r1 r2 r3 r4 r5 r6 r7 r8 r9
      have keep : ∀ y, d.exe y = some (d.source y) → e.exe y = some (d.source y) ∧ (d.fresh y = true → b = true → e.fresh y = true) := by
        intro y hy
        refine ⟨(r9 y hy).1.trans hy, fun hf hb => ?_⟩
        by_cases hyx : y = x
        · subst hyx; exact r7 hb
        · rw [(r9 y hy).2.2.1 hyx, hf]
      cases b with
      | false =>
        refine ⟨r1, r3, r4, r5, ?_, fun y hy => ⟨(keep y hy).1, fun hf => ?_⟩, fun h => (nomatch h)⟩
        · constructor
          · intro h; cases h
          · intro h'
            have := h' x (List.mem_cons_self ..)
            rw [← r2] at this
            cases this
        · simp only
          by_cases hyx : y = x
          · subst hyx
            obtain ⟨v, i, hv, hp, _⟩ := h.fresh y (he y (.inl (List.mem_cons_self ..))) hf
            rw [hy] at hv
            injection hv with hv
            rw [← hv, ← r2] at hp
            cases hp
          · rw [(r9 y hy).2.2.1 hyx, hf]
      | true =>
        obtain ⟨i1, i2, i3, i4, i5, i6, i7⟩ := ih he' e r1
        rw [r3] at i2 i5 i6 i7
        simp only
        refine ⟨i1, i2, i3.trans r4, i4.trans r5, ?_, fun y hy => ?_, fun ho y hy => ?_⟩
        · rw [i5]
          constructor
          · intro h' y hy
            rcases List.mem_cons.1 hy with hy | hy
            · injection hy with hy; subst hy; exact r2.symm
            · exact h' y hy
          · exact fun h' y hy => h' y (List.mem_cons_of_mem _ hy)
        · have := i6 y (keep y hy).1
          exact ⟨this.1, fun hf => this.2 ((keep y hy).2 hf rfl)⟩
        · rcases List.mem_cons.1 hy with hy | hy
          · injection hy with hy; subst hy
            have := i6 y r6
            exact ⟨this.1, this.2 (r7 rfl)⟩
          · exact i7 ho y hy

/-- With all tests compiled from the current sources, each new report lists the same lines. -/
structure Built (w : World) (d : Dir) : Prop where
  exe : ∀ x ∈ w.tests, d.exe x = some (d.source x)
  gcno : ∀ x ∈ w.tests, d.gcno x = some (d.source x)
  lists : ∀ x ∈ w.tests, d.fresh x = true → ∀ i, d.filtered x = some i → ∀ l, (i l).isSome = true ↔
    w.lib l = true ∧ ∃ y ∈ w.tests, w.lines y (d.source y) l = true

theorem Built.report {w : World} {d : Dir} (hn : w.tests.Nodup) (h : Built w d) (x : Test) (hx : x ∈ w.tests) :
    Built w (report w x d).2 := by
  unfold Coverage.report
  rw [compile_noop x d (h.exe x hx)]
  simp only
  split
  · exact h
  · cases hp : w.passes x (d.source x)
    · obtain ⟨d', he, hF, hfil⟩ := recipe_fail w x d (d.source x) (h.exe x hx) hp
      rw [he]
      refine ⟨?_, ?_, ?_⟩
      · simp only; rw [hF.exe, hF.source]; exact h.exe
      · simp only; rw [hF.gcno, hF.source]; exact h.gcno
      · simp only; rw [hF.fresh, hF.source, hfil]; exact h.lists
    · obtain ⟨d', i, he, hF, hi, hcnt, hl⟩ := recipe_ok w hn x hx d (d.source x) (h.exe x hx) (h.gcno x hx) hp
      rw [he]
      refine ⟨?_, ?_, fun y hy hf i' hi' l => ?_⟩
      · simp only; rw [hF.exe, hF.source]; exact h.exe
      · simp only; rw [hF.gcno, hF.source]; exact h.gcno
      · simp only at hf hi' ⊢
        rw [hF.source]
        by_cases hyx : y = x
        · subst hyx
          rw [hi] at hi'
          injection hi' with hi'
          subst hi'
          rw [hl l]
          refine and_congr_right fun _ => ?_
          unfold Listed
          constructor
          · rintro ⟨z, hz, v, hv, hline⟩
            rw [h.gcno z hz] at hv
            injection hv with hv
            subst hv
            exact ⟨z, hz, hline⟩
          · rintro ⟨z, hz, hline⟩
            exact ⟨z, hz, _, h.gcno z hz, hline⟩
        · rw [upd_other _ _ _ _ hyx, hF.fresh] at hf
          rw [hF.filtered y hyx] at hi'
          exact h.lists y hy hf i' hi' l

theorem Built.runEvs {w : World} (hn : w.tests.Nodup) (es : List Ev) (he : EvsOf w es) {d : Dir} (h : Built w d) :
    Built w (runEvs w es d).2 := by
  induction es generalizing d with
  | nil => exact h
  | cons e es ih =>
    have he' : EvsOf w es := fun x hx => he x (hx.imp (List.mem_cons_of_mem _) (List.mem_cons_of_mem _))
    cases e with
    | compile x =>
      unfold Coverage.runEvs
      rw [compile_noop x d (h.exe x (he x (.inr (List.mem_cons_self ..))))]
      exact ih he' h
    | report x =>
      have hr := h.report hn x (he x (.inl (List.mem_cons_self ..)))
      unfold Coverage.runEvs
      generalize Coverage.report w x d = r at *
      obtain ⟨b, e⟩ := r
      cases b with
      | false => exact hr
      | true => exact ih he' hr

theorem mapM_some {α β : Type} (f : α → Option β) (g : α → β) (xs : List α) (h : ∀ x ∈ xs, f x = some (g x)) :
    xs.mapM f = some (xs.map g) := by
  induction xs with
  | nil => rfl
  | cons x xs ih =>
    rw [List.mapM_cons, h x (List.mem_cons_self ..), ih fun y hy => h y (List.mem_cons_of_mem _ hy)]
    rfl

/-- The two last commands, once the tests were reported. -/
theorem covInfo_new (w : World) (d : Dir) (h : Inv w d) (hf : ∀ x ∈ w.tests, d.exe x = some (d.source x) ∧ d.fresh x = true)
    (ha : d.all = none) : ∃ t g, covInfo w d = (true, { d with all := some (sumInfo (w.tests.map g)), total := some t }) ∧
      (∀ x ∈ w.tests, d.filtered x = some (g x) ∧ Right w x (d.source x) (g x)) ∧ t = extract w (sumInfo (w.tests.map g)) := by
  have hx : ∀ x ∈ w.tests, ∃ i, d.filtered x = some i ∧ Right w x (d.source x) i := by
    intro x hx
    obtain ⟨v, i, hv, _, hi, hr⟩ := h.fresh x hx (hf x hx).2
    rw [(hf x hx).1] at hv
    injection hv with hv
    subst hv
    exact ⟨i, hi, hr⟩
  let g : Test → Info := fun x => (d.filtered x).getD fun _ => none
  have hg : ∀ x ∈ w.tests, d.filtered x = some (g x) ∧ Right w x (d.source x) (g x) := by
    intro x hx'
    obtain ⟨i, hi, hr⟩ := hx x hx'
    simp only [g, hi, Option.getD_some]
    exact ⟨trivial, hr⟩
  refine ⟨_, g, ?_, hg, rfl⟩
  unfold covInfo
  rw [ha, mapM_some d.filtered g w.tests fun x hx => (hg x hx).1]

end Uavcan.Coverage
