import Verif.Lemmas.LoopBackClock
import Verif.Props.LoopBack

/-!
# C107: the loopback test ends in time and reports every second
-/

namespace Uavcan.SocketCan
open Can Time Spec

/-- C107: only the ten seconds matter for the result: what `run_test` returns is what C51 says about a run in which the time-out
passes when more than ten seconds have passed since `start_test`. -/
theorem C107_same_result (cw : ClockWorld) (hs : Steady cw) (fuel : Nat) (g : Group) (lb : LoopBackTest) (r : Result) (g' : Group) :
    (∃ outs, runTimed cw fuel 0 g lb cw.begun = some (.ok (r, g', outs))) ↔
      runTest (worldOf cw) fuel 0 g lb = some (.ok (r, g')) := by
  rw [← runTimed_forget hs fuel 0 (.inl rfl) g lb cw.begun]
  generalize runTimed cw fuel 0 g lb cw.begun = x
  rcases x with _ | ⟨⟨r1, g1, o⟩⟩ | u
  · simp [forget]
  · simp only [forget, Option.some.injEq, Outcome.ok.injEq, Prod.mk.injEq]
    exact ⟨fun ⟨_, a, b, _⟩ => ⟨a, b⟩, fun ⟨a, b⟩ => ⟨o, a, b, rfl⟩⟩
  · simp [forget]

/-- C107: a started test ends, after the round in which the ten seconds pass at the latest. If `d` is the longest time between two
checks of the clock (and from the start to the first), the clock then shows at most ten seconds and `d` more than at the start. It
ends earlier only if it is not to run continuously and has succeeded; otherwise it says that it timed out, as its last words, and
more than ten seconds have passed indeed. -/
theorem C107_ends (cw : ClockWorld) (hs : Steady cw) (hv : ∀ k i, ValidRecv (cw.recv k i)) (d : Int)
    (h0 : cw.check 0 - cw.started ≤ d) (hd : ∀ k, cw.check (k + 1) - cw.check k ≤ d)
    (hp : ∃ k, tenSeconds < cw.check k - cw.started) (names : List String) (cont : Bool) (opn : Nat → OpenAns) (snd : Nat → SysAns)
    (fuel : Nat) (g : Group) (lb : LoopBackTest) (evs : List FdEv)
    (hst : startTest ⟨names, true, true⟩ (LoopBackTest.mk' cont) opn snd fuel = some (.ok (some g, lb, evs))) :
    ∃ fuel' r g' outs n, runTimed cw fuel' 0 g lb cw.begun = some (.ok (r, g', outs)) ∧
      (∀ k, k < n → cw.check k - cw.started ≤ tenSeconds) ∧
      ((tenSeconds < cw.check n - cw.started ∧ cw.check n - cw.started ≤ tenSeconds + d ∧
          ∃ before, outs = before ++ [.timedOut (cw.check n) 10] ∧ ∀ t c, Out.timedOut t c ∉ before) ∨
        (cont = false ∧ r = .Success ∧ 0 < n ∧ cw.after (n - 1) - cw.started ≤ tenSeconds + d ∧ ∀ t c, Out.timedOut t c ∉ outs)) := by
  obtain ⟨hc0, rfl⟩ := C51_start_test names cont opn snd fuel g lb evs hst
  obtain ⟨h255, hz⟩ := startTest_fresh hst
  -- the first round that is late
  have hfirst : ∃ n, (worldOf cw).late n = true ∧ ∀ k, k < n → (worldOf cw).late k = false := by
    obtain ⟨k, hk⟩ := hp
    have : ∀ m, (worldOf cw).late m = true → ∃ n, (worldOf cw).late n = true ∧ ∀ k, k < n → (worldOf cw).late k = false := by
      intro m
      induction m using Nat.strongRecOn with
      | ind m ih =>
        intro hm
        by_cases hx : ∃ j, j < m ∧ (worldOf cw).late j = true
        · obtain ⟨j, hj, hl⟩ := hx
          exact ih j hj hl
        · refine ⟨m, hm, fun k hk => ?_⟩
          cases hkl : (worldOf cw).late k with
          | false => rfl
          | true => exact absurd ⟨k, hk, hkl⟩ hx
    exact this k (by simp only [worldOf, decide_eq_true_eq]; exact hk)
  obtain ⟨n0, hn0, hn0'⟩ := hfirst
  obtain ⟨fuel', r, g', hrun, -⟩ := C51_run_test (worldOf cw) hv n0 hn0 hn0' g hc0 cont
  obtain ⟨outs, hrt⟩ := (C107_same_result cw hs fuel' g _ r g').2 hrun
  obtain ⟨n, reps, ho⟩ := runTimed_out hs hv hz fuel' 0 g ⟨List.replicate g.getInterfaceCount 0, cont, .Failure⟩ cw.begun
    ⟨rfl, h255, fun i s hi => ⟨s, hi, rfl, StatsFrom.refl _⟩⟩ hs.2.2.1 r g' outs hrt
  obtain ⟨-, hearly, hends, -⟩ := ho
  have hnl : ∀ k, k < n → cw.check k - cw.started ≤ tenSeconds := by
    intro k hk
    have := hearly k (by omega) hk
    rw [late_iff hs k (reached hs fun j a b => hearly j a (by omega))] at this
    simp only [worldOf, decide_eq_false_iff_not, Int.not_lt] at this
    exact this
  have hnext : cw.check n - cw.started ≤ tenSeconds + d := by
    cases n with
    | zero =>
      have : (0 : Int) ≤ tenSeconds := by decide
      omega
    | succ n => have := hnl n (by omega); have := hd n; omega
  have hno : ∀ t c, Out.timedOut t c ∉ reps.map fun p => Out.report p.1 p.2 := by
    intro t c hm
    obtain ⟨p, -, hp⟩ := List.mem_map.1 hm
    cases hp
  refine ⟨fuel', r, g', outs, n, hrt, hnl, ?_⟩
  rcases hends with ⟨hl, he⟩ | ⟨hn, hc, hr, he⟩
  · left
    rw [late_iff hs n (reached hs hearly)] at hl
    simp only [worldOf, decide_eq_true_eq] at hl
    exact ⟨hl, hnext, _, he, hno⟩
  · right
    refine ⟨hc, hr, hn, ?_, by rw [he]; exact hno⟩
    have h1 := (hs.2.2.2.1 (n - 1)).2
    rw [show n - 1 + 1 = n by omega] at h1
    omega

/-- C107: what a started test has printed when it ends: reports `reps` and perhaps that it timed out. Reports are at least a second
apart (and from the beginning); at every look at the clock after `select`, in rounds 0 to `n - 1`, the last report (or the beginning) is less than
a second ago; and every report has the statistics of all interfaces, in order, over all messages received in earlier rounds. -/
theorem C107_reports (cw : ClockWorld) (hs : Steady cw) (hv : ∀ k i, ValidRecv (cw.recv k i)) (names : List String) (cont : Bool)
    (opn : Nat → OpenAns) (snd : Nat → SysAns) (fuel : Nat) (g : Group) (lb : LoopBackTest) (evs : List FdEv)
    (hst : startTest ⟨names, true, true⟩ (LoopBackTest.mk' cont) opn snd fuel = some (.ok (some g, lb, evs)))
    (fuel' : Nat) (r : Result) (g' : Group) (outs : List Out) (hrt : runTimed cw fuel' 0 g lb cw.begun = some (.ok (r, g', outs))) :
    ∃ (n : Nat) (reps : List (Int × List StatLine)),
      (outs = (reps.map fun p => .report p.1 p.2) ++ [.timedOut (cw.check n) 10] ∨ outs = reps.map fun p => .report p.1 p.2) ∧
      (tenSeconds < cw.check n - cw.started ∨ r = .Success) ∧
      (cw.begun :: reps.map Prod.fst).Pairwise (fun a b => oneSecond ≤ b - a) ∧
      (∀ k, k < n → ∃ t ∈ cw.begun :: reps.map Prod.fst, t ≤ cw.after k ∧ cw.after k - t < oneSecond) ∧
      ∀ p ∈ reps, ∃ k, k < n ∧ p.1 = cw.after k ∧ RightReport cw g k p.2 := by
  obtain ⟨h255, hz⟩ := startTest_fresh hst
  obtain ⟨n, reps, -, h2, h3, h4, h5, h6⟩ := runTimed_out hs hv hz fuel' 0 g lb cw.begun
    ⟨rfl, h255, fun i s hi => ⟨s, hi, rfl, StatsFrom.refl _⟩⟩ hs.2.2.1 r g' outs hrt
  refine ⟨n, reps, ?_, ?_, h4, fun k hk => h5 k (by omega) hk, fun p hp => ?_⟩
  · rcases h3 with ⟨-, he⟩ | ⟨-, -, -, he⟩
    · exact .inl he
    · exact .inr he
  · rcases h3 with ⟨hl, -⟩ | ⟨-, -, hr, -⟩
    · left
      rw [late_iff hs n (reached hs h2)] at hl
      simp only [worldOf, decide_eq_true_eq] at hl
      exact hl
    · exact .inr hr
  · obtain ⟨k, -, a, b, c⟩ := h6 p hp
    exact ⟨k, a, b, c⟩

/-- A world for an example: a round takes 600 ms, nothing comes back but, in round 0, a frame of somebody else. -/
def slowWorld : ClockWorld where
  started := 5
  begun := 6
  check k := 10 + 600000000 * k
  after k := 11 + 600000000 * k
  poll _ := ⟨0, []⟩
  recv k _ := if k = 0 then ⟨1, 0, [plainMsg 0x80000009]⟩ else ⟨-1, 11, []⟩

example : Steady slowWorld := by
  refine ⟨by decide, by decide, by decide, fun k => ⟨?_, ?_⟩, fun k hk => ?_⟩
  · simp only [slowWorld]; omega
  · simp only [slowWorld]; omega
  · simp only [Reached, slowWorld, tenSeconds] at hk ⊢
    omega

/-- Of what was printed: times and numbers of frames received, or only the time. -/
def digest : Out → Int × List (String × Option (BitVec 64))
  | .report t ls => (t, ls.map fun l => (l.name, l.fields.lookup "rx"))
  | .timedOut t _ => (t, [])

/-- A report about every second round; the time-out is noticed within a round. -/
example : ∃ g lb evs, startTest ⟨["a"], true, true⟩ (LoopBackTest.mk' false) (fun k => { socket := 3 + k }) (fun _ => ⟨2, 0⟩) 3 =
      some (.ok (some g, lb, evs)) ∧
    ∃ r g' outs, runTimed slowWorld 20 0 g lb slowWorld.begun = some (.ok (r, g', outs)) ∧ r = .Failure ∧
      outs.map digest = [(1200000011, [("a", some 1)]), (2400000011, [("a", some 1)]), (3600000011, [("a", some 1)]),
        (4800000011, [("a", some 1)]), (6000000011, [("a", some 1)]), (7200000011, [("a", some 1)]), (8400000011, [("a", some 1)]),
        (9600000011, [("a", some 1)]), (10200000010, [])] :=
  ⟨_, _, _, rfl, _, _, _, rfl, by decide +kernel, by decide +kernel⟩

end Uavcan.SocketCan
