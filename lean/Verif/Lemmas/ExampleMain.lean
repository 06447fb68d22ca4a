import Verif.Model.ExampleMain
import Verif.Lemmas.LoopBack

namespace Uavcan.SocketCan
open Can Time Spec ParseArgs

/-! ## The loop that sends the test frames -/

/-- The descriptors of a group. -/
def fdsOf (g : Group) : List Int := g.interfaces.map Iface.fd

theorem fdsOf_set (g : Group) (i : Nat) (s s' : Iface) (h : g.interfaces[i]? = some s) (hf : s'.fd = s.fd) :
    fdsOf ⟨g.interfaces.set i s'⟩ = fdsOf g := by
  simp only [fdsOf, List.map_set]
  rw [hf]
  have : (g.interfaces.map Iface.fd)[i]? = some s.fd := by rw [List.getElem?_map, h]; rfl
  apply List.ext_getElem?
  intro k
  rw [List.getElem?_set]
  split
  · rename_i he; subst he
    rw [this]
    have : i < (g.interfaces.map Iface.fd).length := by
      rcases Nat.lt_or_ge i (g.interfaces.map Iface.fd).length with h' | h'
      · exact h'
      · rw [List.getElem?_eq_none h'] at this; cases this
    rw [if_pos this]
  · rfl

/-- What is sent: for every interface, both frames, by its own `write`. -/
inductive Sends (ts : Vector FrameT FramesLen) (snd : Nat → SysAns) : Nat → List Int → List FdEv → Prop
  | nil (i) (fds) : Sends ts snd i fds []
  | cons {i fd fds fs evs} (s : Iface) (r : WriteOut) : s.fd = fd → s.write ts 2 (snd i) = .ok r → fs = r.submitted →
      Sends ts snd (i + 1) fds evs → Sends ts snd i (fd :: fds) (.call fd (.send fs) :: evs)

theorem writeAll_ok (ts : Vector FrameT FramesLen) (snd : Nat → SysAns) (n i : Nat) (g : Group)
    (hi : i + n = g.interfaces.length) (found : List (BitVec 32)) :
    ∃ g' fo evs, writeAll ts snd n i g found = .ok (g', fo, evs) ∧ fdsOf g' = fdsOf g ∧
      Sends ts snd i ((fdsOf g).drop i) evs ∧ (fo ≠ none → evs.length = n) ∧
      ((∀ k, i ≤ k → k < i + n → 0 < (snd k).res) → fo = some (found ++ List.replicate n 0)) ∧
      ((∃ k, i ≤ k ∧ k < i + n ∧ (snd k).res ≤ 0) → fo = none) := by
  induction n generalizing i g found with
  | zero =>
    refine ⟨g, some found, [], rfl, rfl, .nil _ _, fun _ => rfl, fun _ => by simp, ?_⟩
    rintro ⟨k, h1, h2, -⟩; omega
  | succ n ih =>
    obtain ⟨bufs, -, -, e⟩ := write_ok (g.interfaces[i]'(by omega)) ts 2 (snd i) (by decide) (by decide)
    have hget : g.interfaces[i]? = some (g.interfaces[i]'(by omega)) := List.getElem?_eq_getElem (by omega)
    have hdrop : (fdsOf g).drop i = (g.interfaces[i]'(by omega)).fd :: (fdsOf g).drop (i + 1) := by
      rw [List.drop_eq_getElem_cons (by simp [fdsOf]; omega)]
      simp [fdsOf]
    simp only [writeAll, Group.write, Group.getInterface, hget, e, Outcome.ok_bind, Outcome.pure_eq]
    have hfd : ∀ b, fdsOf ⟨g.interfaces.set i { (g.interfaces[i]'(by omega)) with bufs := b }⟩ = fdsOf g :=
      fun b => fdsOf_set g i _ _ hget rfl
    by_cases hr : (snd i).res ≤ 0
    · have hnot : (if (snd i).res ≤ 0 then (if (snd i).errno = ENOBUFS ∨ (snd i).errno = EAGAIN then Result.BufferFull else .Failure)
          else if (snd i).res.toNat < 2 then .SuccessPartial else .Success).not = true := by
        rw [if_pos hr]; split <;> rfl
      rw [hnot]
      refine ⟨_, _, _, rfl, hfd _, ?_, fun h => absurd rfl h, ?_, fun _ => rfl⟩
      · rw [hdrop]
        exact .cons _ _ rfl e rfl (.nil _ _)
      · intro h
        have := h i (by omega) (by omega)
        omega
    · have hnot : (if (snd i).res ≤ 0 then (if (snd i).errno = ENOBUFS ∨ (snd i).errno = EAGAIN then Result.BufferFull else .Failure)
          else if (snd i).res.toNat < 2 then .SuccessPartial else .Success).not = false := by
        rw [if_neg hr]; split <;> rfl
      rw [hnot]
      obtain ⟨g', fo, evs, e', f', s', l', a, b⟩ := ih (i + 1)
        ⟨g.interfaces.set i { (g.interfaces[i]'(by omega)) with bufs := bufs }⟩
        (by simp only [List.length_set]; omega) (found ++ [0])
      refine ⟨g', fo, .call (g.interfaces[i]'(by omega)).fd (.send (bufs.toList.take 2)) :: evs, ?_, f'.trans (hfd _), ?_, ?_, ?_, ?_⟩
      · simp only [Bool.not_false, if_true, e', Outcome.ok_bind]; rfl
      · rw [hdrop]
        rw [hfd] at s'
        exact .cons _ _ rfl e rfl s'
      · intro h; simp [l' h]
      · intro h
        rw [a (fun k h1 h2 => h k (by omega) (by omega)), List.append_assoc]
        rfl
      · rintro ⟨k, h1, h2, h3⟩
        apply b
        have : k ≠ i := by intro h; subst h; exact hr h3
        exact ⟨k, by omega, by omega, h3⟩

/-! ## Descriptors stay with the group -/

theorem Sends.mem {ts : Vector FrameT FramesLen} {snd : Nat → SysAns} {i : Nat} {fds : List Int} {evs : List FdEv}
    (h : Sends ts snd i fds evs) : ∀ e ∈ evs, ∃ fd ∈ fds, ∃ fs, e = .call fd (.send fs) := by
  induction h with
  | nil => intro e he; cases he
  | cons s r _ _ _ _ ih =>
    intro e he
    rcases List.mem_cons.1 he with rfl | he
    · exact ⟨_, List.mem_cons_self .., _, rfl⟩
    · obtain ⟨fd, h1, h2⟩ := ih e he
      exact ⟨fd, List.mem_cons_of_mem _ h1, h2⟩

theorem sendsOf_append (a b : List FdEv) : sendsOf (a ++ b) = sendsOf a ++ sendsOf b := List.filterMap_append

/-- While a group is started, nothing is sent. -/
theorem LoopEv.noSend {F : Int → SetFilter} {m : Manager} {ans : Nat → OpenAns} {i : Nat} {names : List String} {evs : List FdEv}
    (h : LoopEv F m ans i names evs) : sendsOf evs = [] := by
  refine List.filterMap_eq_nil_iff.2 fun e he => ?_
  cases e with
  | opened => rfl
  | closed => rfl
  | call fd c =>
    cases c with
    | send fs => exact (h.setup fd _ he).elim
    | _ => rfl

/-- What is sent. -/
theorem Sends.sent {ts : Vector FrameT FramesLen} {snd : Nat → SysAns} {i : Nat} {fds : List Int} {evs : List FdEv}
    (h : Sends ts snd i fds evs) (ht : testFrames = .ok ts) :
    (sendsOf evs).map Prod.fst = fds.take evs.length ∧
      ∀ p ∈ sendsOf evs, ∃ a b, p.2 = [a, b] ∧ IsTestOut 0 a ∧ IsTestOut 1 b := by
  induction h with
  | nil => exact ⟨rfl, fun p hp => by cases hp⟩
  | @cons i fd fds fs evs s r hfd hw hfs _ ih =>
    rw [show sendsOf (.call fd (.send fs) :: evs) = (fd, fs) :: sendsOf evs from rfl]
    refine ⟨by rw [List.map_cons, ih.1]; rfl, fun p hp => ?_⟩
    rcases List.mem_cons.1 hp with rfl | hp
    · obtain ⟨ts', e, t0, t0', t1, t1'⟩ := testFrames_eq
      rw [ht] at e
      injection e with e
      subst e
      obtain ⟨bufs, -, hb, e⟩ := write_ok s ts 2 (snd i) (by decide) (by decide)
      rw [e] at hw
      injection hw with hw
      rw [hfs, ← hw]
      have h0 := hb 0 (by decide)
      have h1 := hb 1 (by decide)
      rw [if_pos (by decide)] at h0 h1
      refine ⟨bufs[0]'(by decide), bufs[1]'(by decide), ?_, ?_, ?_⟩
      · have hl : bufs.toList.length = 4 := bufs.length_toList
        apply List.ext_getElem
        · simp [FramesLen]
        · intro k hk hk'
          rcases (by simp at hk'; omega : k = 0 ∨ k = 1) with rfl | rfl <;> simp
      · refine ⟨?_, ?_, ?_⟩
        · rw [h0.1, t0]; decide
        · rw [h0.1, t0]; decide
        · rw [h0.2.1, t0']; rfl
      · refine ⟨?_, ?_, ?_⟩
        · rw [h1.1, t1]; decide
        · rw [h1.1, t1]; decide
        · rw [h1.2.1, t1']; rfl
    · exact ih.2 p hp

theorem openAfter_onlyCalls (o : List Int) (evs : List FdEv) (h : ∀ e ∈ evs, ∃ fd c, e = .call fd c) : openAfter o evs = o := by
  induction evs with
  | nil => rfl
  | cons e t ih =>
    obtain ⟨fd, c, rfl⟩ := h e (List.mem_cons_self ..)
    exact ih fun e he => h e (List.mem_cons_of_mem _ he)

theorem noBadClose_onlyCalls (o : List Int) (evs : List FdEv) (h : ∀ e ∈ evs, ∃ fd ∈ o, ∃ c, e = .call fd c) : NoBadClose o evs := by
  induction evs with
  | nil => trivial
  | cons e t ih =>
    obtain ⟨fd, hf, c, rfl⟩ := h e (List.mem_cons_self ..)
    exact ⟨hf, ih fun e he => h e (List.mem_cons_of_mem _ he)⟩

theorem read_fd {s : Iface} {out : Vector FrameT FramesLen} {ans : RecvAns} {r : ReadOut} (h : s.read out ans = .ok r) :
    r.iface.fd = s.fd := by
  unfold Iface.read at h
  split at h
  · injection h with h; rw [← h]
  · simp only at h
    cases hl : readLoop (storeMsgs (ans.msgs.take ans.res.toNat) 0 s.bufs) (ans.msgs.take ans.res.toNat) 0
      { stats := s.stats, out_frames := out, out_frames_read := 0 } with
    | ub u => rw [hl] at h; cases h
    | ok st =>
      rw [hl] at h
      simp only [Outcome.ok_bind, Outcome.pure_eq] at h
      injection h with h; rw [← h]

theorem groupRead_fds {g : Group} {i : Nat} {fr : Vector FrameT FramesLen} {o : Nat} {ans : RecvAns} {r : Group.ReadOut}
    (h : g.read i fr o ans = .ok r) : fdsOf r.group = fdsOf g := by
  unfold Group.read at h
  cases hg : g.interfaces[i]? with
  | none => rw [hg] at h; injection h with h; rw [← h]
  | some s =>
    rw [hg] at h
    simp only at h
    cases hr : s.read fr ans with
    | ub u => rw [hr] at h; cases h
    | ok q =>
      rw [hr] at h
      simp only [Outcome.ok_bind, Outcome.pure_eq] at h
      injection h with h
      rw [← h]
      exact fdsOf_set g i s q.iface hg (read_fd hr)

theorem readAll_fds {ans : Nat → RecvAns} {n i : Nat} {g : Group} {fr : Vector FrameT FramesLen} {lb : LoopBackTest}
    {g' : Group} {lb' : LoopBackTest} (h : readAll ans n i g fr lb = .ok (g', lb')) : fdsOf g' = fdsOf g := by
  induction n generalizing i g fr lb with
  | zero => injection h with h; injection h with h _; rw [← h]
  | succ n ih =>
    simp only [readAll] at h
    cases hr : g.read i fr 0 (ans i) with
    | ub u => rw [hr] at h; cases h
    | ok r =>
      rw [hr] at h
      simp only [Outcome.ok_bind] at h
      have hf := groupRead_fds hr
      split at h
      · split at h
        · cases he : lb.evaluate i r.out_frames r.read with
          | ub u => rw [he] at h; cases h
          | ok lb1 => rw [he] at h; exact (ih h).trans hf
        · exact (ih h).trans hf
      · exact (ih h).trans hf

theorem runTest_fds {wd : World} {fuel k : Nat} {g : Group} {lb : LoopBackTest} {r : Result} {g' : Group}
    (h : runTest wd fuel k g lb = some (.ok (r, g'))) : fdsOf g' = fdsOf g := by
  induction fuel generalizing k g lb with
  | zero => cases h
  | succ fuel ih =>
    rw [runTest] at h
    split at h
    · injection h with h; injection h with h; injection h with _ h; rw [← h]
    · split at h
      · injection h with h; cases h
      · split at h
        · injection h with h; cases h
        · rename_i g1 lb1 hra
          have hf := readAll_fds hra
          split at h
          · split at h
            · exact (ih h).trans hf
            · injection h with h; injection h with h; injection h with _ h; rw [← h]; exact hf
          · exact (ih h).trans hf

/-! ## Fuel -/

theorem startLoop_mono {m : Manager} {fc : Option (List Filter)} {num : Nat} {ans : Nat → OpenAns} {fuel i k : Nat}
    {ifs : List Iface} {evs : List FdEv} {x} (h : m.startLoop fc num ans fuel i k ifs evs = some x) (d : Nat) :
    m.startLoop fc num ans (fuel + d) i k ifs evs = some x := by
  induction fuel generalizing i k ifs evs with
  | zero => cases h
  | succ fuel ih =>
    rw [show fuel + 1 + d = fuel + d + 1 by omega]
    rw [Manager.startLoop] at h ⊢
    split at h
    · exact h
    · split at h
      · exact h
      · rename_i hr
        try rw [hr]
        exact ih h

theorem startTest_mono {m : Manager} {lb : LoopBackTest} {opn : Nat → OpenAns} {snd : Nat → SysAns} {fuel : Nat} {x}
    (h : startTest m lb opn snd fuel = some x) (d : Nat) : startTest m lb opn snd (fuel + d) = some x := by
  cases hs : m.startLoop (some testFilters) 1 opn fuel 0 0 [] [] with
  | none =>
    have hg : m.startInterfaceGroup (some testFilters) 1 none opn fuel = none := by simp only [Manager.startInterfaceGroup, hs]
    unfold startTest at h ⊢
    rw [hg] at h
    split at h
    · rename_i h1; rw [if_pos h1]; exact h
    · rename_i h1
      rw [if_neg h1]
      split at h
      · rename_i h2; rw [if_pos h2]; exact h
      · cases h
  | some y =>
    have hg : m.startInterfaceGroup (some testFilters) 1 none opn (fuel + d) =
        m.startInterfaceGroup (some testFilters) 1 none opn fuel := by
      simp only [Manager.startInterfaceGroup, hs, startLoop_mono hs d]
    unfold startTest at h ⊢
    rw [hg]
    exact h

theorem runTest_mono {wd : World} {fuel k : Nat} {g : Group} {lb : LoopBackTest} {x} (h : runTest wd fuel k g lb = some x)
    (d : Nat) : runTest wd (fuel + d) k g lb = some x := by
  induction fuel generalizing k g lb with
  | zero => cases h
  | succ fuel ih =>
    rw [show fuel + 1 + d = fuel + d + 1 by omega]
    rw [runTest] at h ⊢
    split at h
    · rename_i h1; rw [if_pos h1]; exact h
    · rename_i h1
      rw [if_neg h1]
      split at h
      · exact h
      · split at h
        · exact h
        · split at h
          · rename_i h4
            simp only [h4, if_true]
            split at h
            · rename_i h5; rw [if_pos h5]; exact ih h
            · rename_i h5; rw [if_neg h5]; exact h
          · rename_i h4
            simp only [h4]
            exact ih h

/-! ## start_test -/

theorem goodFilters_test : GoodFilters (some testFilters) 1 := .inr ⟨by decide, testFilters, rfl, by decide⟩

/-- What `start_test` does, for at most 255 devices. -/
theorem startTest_ok (names : List String) (cont : Bool) (opn : Nat → OpenAns) (snd : Nat → SysAns) (hl : names.length ≤ 255)
    (fuel : Nat) (hfu : names.length < fuel) :
    let m : Manager := ⟨names, true, true⟩
    ∃ og lb evs evs0 sent ts, startTest m (LoopBackTest.mk' cont) opn snd fuel = some (.ok (og, lb, evs)) ∧
      LoopEv (filterCall (some testFilters) 1) m opn 0 names evs0 ∧ testFrames = .ok ts ∧
      Sends ts snd 0 ((openedFrom m opn 0 names).map Iface.fd) sent ∧
      (∀ g, og = some g → evs = evs0 ++ sent ∧ sent.length = (openedFrom m opn 0 names).length ∧
        fdsOf g = (openedFrom m opn 0 names).map Iface.fd ∧
        g.getInterfaceCount = (openedFrom m opn 0 names).length ∧ 0 < g.getInterfaceCount ∧
        lb = ⟨List.replicate g.getInterfaceCount 0, cont, .Failure⟩) ∧
      (og = none → evs = evs0 ++ sent ++ ((openedFrom m opn 0 names).map Iface.fd).map .closed) ∧
      (og ≠ none ↔ openedFrom m opn 0 names ≠ [] ∧ ∀ k, k < (openedFrom m opn 0 names).length → 0 < (snd k).res) := by
  intro m
  obtain ⟨evs0, ifs, hifs, hev, hst⟩ := start_ok goodFilters_test m hl opn none fuel hfu
  have hlen := (openedFrom_length m opn 0 names).1
  have hmr : m.receive_own = true := rfl
  rw [show (openedFrom m opn 0 names) = ifs from hifs.symm] at *
  by_cases he : ifs = []
  · rw [if_pos he] at hst
    obtain ⟨ts, hts, -⟩ := testFrames_eq
    refine ⟨none, LoopBackTest.mk' cont, evs0, evs0, [], ts, ?_, hev, hts, .nil _ _, fun g h => (by cases h), ?_, ?_⟩
    · simp only [startTest, LoopBackTest.mk', List.length_nil, Nat.lt_irrefl, if_false, hmr, Bool.not_true, Bool.false_eq_true, hst]
      rfl
    · intro _; rw [he]; simp
    · rw [he]; simp
  · rw [if_neg he] at hst
    obtain ⟨ts, hts, -⟩ := testFrames_eq
    have hcount : (⟨ifs⟩ : Group).getInterfaceCount = ifs.length := by
      simp only [Group.getInterfaceCount]; omega
    have hpos : 0 < ifs.length := by
      cases ifs with
      | nil => exact absurd rfl he
      | cons a t => simp
    obtain ⟨g', fo, sent, hw, hf, hse, hsl, hall, hnone⟩ := writeAll_ok ts snd ifs.length 0 ⟨ifs⟩ (by simp) []
    simp only [Nat.zero_le, true_imp_iff, Nat.zero_add, true_and, List.nil_append] at hall hnone
    rw [List.drop_zero] at hse
    have hres : ∀ b : Prop, [Decidable b] → (if b then Result.Success else .SuccessPartial).isFailure = false := by
      intro b _; split <;> rfl
    have hlg : g'.interfaces.length = ifs.length := by
      have := congrArg List.length hf
      simpa [fdsOf] using this
    have hcg : g'.getInterfaceCount = ifs.length := by simp only [Group.getInterfaceCount]; omega
    have hrun : startTest m (LoopBackTest.mk' cont) opn snd fuel = some (
        if fo = none then .ok (none, ⟨[], cont, .Failure⟩, evs0 ++ sent ++ closeGroup (some g'))
        else .ok (some g', ⟨fo.getD [], cont, .Failure⟩, evs0 ++ sent)) := by
      simp only [startTest, LoopBackTest.mk', List.length_nil, Nat.lt_irrefl, if_false, hmr, Bool.not_true, Bool.false_eq_true, hst,
        hres, hts, Outcome.ok_bind, hcount, hw, decide_eq_true hpos, Bool.not_true, Bool.false_eq_true, if_false, closeGroup, List.append_nil]
      cases fo <;> rfl
    by_cases hsend : ∀ k, k < ifs.length → 0 < (snd k).res
    · rw [hall hsend, if_neg (by simp)] at hrun
      refine ⟨_, _, _, evs0, sent, ts, hrun, hev, hts, hse, ?_, fun h => (by cases h), ⟨fun _ => ⟨he, hsend⟩, fun _ h => (by cases h)⟩⟩
      intro g hg
      injection hg with hg
      subst hg
      refine ⟨rfl, hsl (by rw [hall hsend]; simp), hf, hcg, by omega, by rw [hcg]; rfl⟩
    · have hex : ∃ k, k < ifs.length ∧ (snd k).res ≤ 0 := by
        apply Classical.byContradiction
        intro hn
        apply hsend
        intro k hk
        rcases Int.lt_or_le 0 (snd k).res with h | h
        · exact h
        · exact absurd ⟨k, hk, h⟩ hn
      rw [hnone hex, if_pos rfl] at hrun
      refine ⟨_, _, _, evs0, sent, ts, hrun, hev, hts, hse, fun g h => (by cases h), ?_, ⟨fun h => absurd rfl h, fun h => absurd h.2 hsend⟩⟩
      intro _
      rw [← show fdsOf g' = ifs.map Iface.fd from hf]
      simp [closeGroup, fdsOf]

theorem startTest_forever (names : List String) (cont : Bool) (opn : Nat → OpenAns) (snd : Nat → SysAns)
    (hl : 256 ≤ names.length) (fuel : Nat) : startTest ⟨names, true, true⟩ (LoopBackTest.mk' cont) opn snd fuel = none := by
  have := startLoop_forever goodFilters_test ⟨names, true, true⟩ hl opn fuel 0 0 (by decide) [] []
  simp only [startTest, LoopBackTest.mk', List.length_nil, Nat.lt_irrefl, if_false, Bool.not_true, Bool.false_eq_true,
    Manager.startInterfaceGroup, this]

theorem records_replicate (c : Nat) (S : Nat → Nat → Prop) (h : ∀ i j, ¬ S i j) : Records (List.replicate c 0) c S := by
  refine ⟨List.length_replicate, fun i hi => ⟨false, false, ?_, ?_, ?_⟩⟩
  · rw [List.getElem?_replicate, if_pos hi]; rfl
  · simp [h]
  · simp [h]

theorem exampleMain_mono {args : List Str} {env : Env} {fuel : Nat} {x} (h : exampleMain args env fuel = some x) (d : Nat) :
    exampleMain args env (fuel + d) = some x := by
  unfold exampleMain at h ⊢
  split at h
  · exact h
  · split at h
    · rename_i h1; rw [if_pos h1]; exact h
    · rename_i h1
      rw [if_neg h1]
      simp only at h ⊢
      split at h
      · cases h
      · rename_i h2; rw [startTest_mono h2 d]; exact h
      · rename_i h2; rw [startTest_mono h2 d]; exact h
      · rename_i h2
        rw [startTest_mono h2 d]
        simp only at h ⊢
        split at h
        · cases h
        · rename_i h3; rw [runTest_mono h3 d]; exact h
        · rename_i h3; rw [runTest_mono h3 d]; exact h

end Uavcan.SocketCan
