import Verif.Spec.LoopBackClock
import Verif.Lemmas.LoopBack
import Verif.Props.SocketCan
import Verif.Lemmas.ExampleMain
import Verif.Lemmas.SocketKernel

namespace Uavcan.SocketCan
open Can Time Spec

/-- The statistics of an interface on which these messages have been received since they were `s0`. -/
def StatsFrom (s0 : Statistics) (ms : List RxMsg) (s : Statistics) : Prop :=
  (∀ c : ErrClass, c.stat s = c.stat s0 + BitVec.ofNat 64 (ms.filter (Reports c)).length) ∧
  s.rx_total = s0.rx_total + BitVec.ofNat 64 (ms.filter fun m => Delivers m.frame.can_id).length ∧
  s.rx_dropped = s0.rx_dropped + sum64 (ms.flatMap fun m => dropsOf m.cmsgs)

theorem StatsFrom.refl (s : Statistics) : StatsFrom s [] s := ⟨by simp, by simp, by simp [sum64]⟩

theorem StatsFrom.trans {s0 s1 s2 : Statistics} {a b : List RxMsg} (h1 : StatsFrom s0 a s1) (h2 : StatsFrom s1 b s2) :
    StatsFrom s0 (a ++ b) s2 := by
  refine ⟨fun c => ?_, ?_, ?_⟩
  · rw [h2.1, h1.1, BitVec.add_assoc, ← BitVec.ofNat_add]
    simp [List.filter_append]
  · rw [h2.2.1, h1.2.1, BitVec.add_assoc, ← BitVec.ofNat_add]
    simp [List.filter_append]
  · rw [h2.2.2, h1.2.2, BitVec.add_assoc, ← sum64_append]
    simp [List.flatMap_append]

theorem read_stats {s : Iface} {out : Vector FrameT FramesLen} {ans : RecvAns} (hv : ValidRecv ans) {r : ReadOut}
    (h : s.read out ans = .ok r) : r.iface.name = s.name ∧ StatsFrom s.stats (got ans) r.iface.stats := by
  constructor
  · unfold Iface.read at h
    split at h
    · cases h; rfl
    · obtain ⟨x, -, hx⟩ := Outcome.bind_eq_ok.1 h
      cases hx; rfl
  · obtain ⟨s', h1, h2, h3, h4⟩ := step_stats s (.read out ans) hv
    simp only [Iface.step, h, Outcome.ok_bind, Outcome.pure_eq] at h1
    cases h1
    have : opMsgs (.read out ans) = got ans := by
      simp only [opMsgs, got]
      split
      · rfl
      · exact List.take_of_length_le (by have := hv.2 (by omega); omega)
    rw [this] at h2 h3 h4
    exact ⟨h2, h3, h4⟩

theorem readAll_stats (ans : Nat → RecvAns) (hv : ∀ i, ValidRecv (ans i)) (n i : Nat) (g : Group)
    (frames : Vector FrameT FramesLen) (lb : LoopBackTest) (g' : Group) (lb' : LoopBackTest)
    (h : readAll ans n i g frames lb = .ok (g', lb')) :
    g'.interfaces.length = g.interfaces.length ∧ lb'.continuous = lb.continuous ∧
    ∀ j s, g.interfaces[j]? = some s → ∃ s', g'.interfaces[j]? = some s' ∧ s'.name = s.name ∧
      (i ≤ j → j < i + n → StatsFrom s.stats (got (ans j)) s'.stats) ∧ (¬ (i ≤ j ∧ j < i + n) → s' = s) := by
  induction n generalizing i g frames lb with
  | zero =>
    simp only [readAll] at h
    cases h
    exact ⟨rfl, rfl, fun j s hs => ⟨s, hs, rfl, fun _ _ => by omega, fun _ => rfl⟩⟩
  | succ n ih =>
    rw [readAll] at h
    obtain ⟨r, hr, h⟩ := Outcome.bind_eq_ok.1 h
    have key : r.group.interfaces.length = g.interfaces.length ∧
        ∀ j s, g.interfaces[j]? = some s → ∃ s', r.group.interfaces[j]? = some s' ∧ s'.name = s.name ∧
          (j = i → StatsFrom s.stats (got (ans j)) s'.stats) ∧ (j ≠ i → s' = s) := by
      unfold Group.read at hr
      split at hr
      · rename_i hnone
        cases hr
        refine ⟨rfl, fun j s hs => ⟨s, hs, rfl, ?_, fun _ => rfl⟩⟩
        intro hj; subst hj; rw [hnone] at hs; cases hs
      · rename_i s0 hs0
        obtain ⟨ro, hro, hr⟩ := Outcome.bind_eq_ok.1 hr
        cases hr
        have hst := read_stats (hv i) hro
        refine ⟨List.length_set .., fun j s hs => ?_⟩
        by_cases hj : j = i
        · subst hj
          rw [hs0] at hs; cases hs
          have hlt : j < g.interfaces.length := (List.getElem?_eq_some_iff.1 hs0).1
          exact ⟨ro.iface, by simp [List.getElem?_set_self hlt], hst.1, fun _ => hst.2, fun hn => absurd rfl hn⟩
        · exact ⟨s, by simp only []; rw [List.getElem?_set_ne (fun e => hj e.symm)]; exact hs, rfl,
            fun e => absurd e hj, fun _ => rfl⟩
    have fin : ∀ lb1, lb1.continuous = lb.continuous → readAll ans n (i + 1) r.group r.out_frames lb1 = .ok (g', lb') →
        g'.interfaces.length = g.interfaces.length ∧ lb'.continuous = lb.continuous ∧
        ∀ j s, g.interfaces[j]? = some s → ∃ s', g'.interfaces[j]? = some s' ∧ s'.name = s.name ∧
          (i ≤ j → j < i + (n + 1) → StatsFrom s.stats (got (ans j)) s'.stats) ∧ (¬ (i ≤ j ∧ j < i + (n + 1)) → s' = s) := by
      intro lb1 hc hx
      obtain ⟨a, b, c⟩ := ih (i + 1) r.group r.out_frames lb1 hx
      refine ⟨a.trans key.1, b.trans hc, fun j s hs => ?_⟩
      obtain ⟨s1, h1, n1, e1, k1⟩ := key.2 j s hs
      obtain ⟨s2, h2, n2, e2, k2⟩ := c j s1 h1
      refine ⟨s2, h2, n2.trans n1, fun hij hj => ?_, fun hn => ?_⟩
      · by_cases hji : j = i
        · rw [k2 (by omega)]; exact e1 hji
        · have := e2 (by omega) (by omega)
          rwa [k1 hji] at this
      · rw [k2 (by omega), k1 (by omega)]
    split at h
    · split at h
      · obtain ⟨lb1, hlb1, h⟩ := Outcome.bind_eq_ok.1 h
        refine fin lb1 ?_ h
        unfold LoopBackTest.evaluate at hlb1
        split at hlb1
        · cases hlb1
        · split at hlb1
          · obtain ⟨_, _, hlb1⟩ := Outcome.bind_eq_ok.1 hlb1
            obtain ⟨_, _, hlb1⟩ := Outcome.bind_eq_ok.1 hlb1
            cases hlb1; rfl
          · cases hlb1; rfl
      · exact fin lb rfl h
    · exact fin lb rfl h

/-- A group before round `k`, having started as `g0`. -/
def GroupAt (cw : ClockWorld) (g0 : Group) (k : Nat) (g : Group) : Prop :=
  g.interfaces.length = g0.interfaces.length ∧ g.interfaces.length ≤ 255 ∧
  ∀ i s, g0.interfaces[i]? = some s → ∃ s', g.interfaces[i]? = some s' ∧ s'.name = s.name ∧
    StatsFrom s.stats (msgsBefore cw i k) s'.stats

theorem GroupAt.step {cw : ClockWorld} (hv : ∀ k i, ValidRecv (cw.recv k i)) {g0 : Group} {k : Nat} {g : Group}
    (h : GroupAt cw g0 k g) {frames : Vector FrameT FramesLen} {lb : LoopBackTest} {g' : Group} {lb' : LoopBackTest}
    (hr : readAll (cw.recv k) g.getInterfaceCount 0 g frames lb = .ok (g', lb')) :
    GroupAt cw g0 (k + 1) g' ∧ lb'.continuous = lb.continuous := by
  obtain ⟨a, b, c⟩ := readAll_stats (cw.recv k) (hv k) _ 0 g frames lb g' lb' hr
  obtain ⟨h1, h2, h3⟩ := h
  refine ⟨⟨a.trans h1, by omega, fun i s hs => ?_⟩, b⟩
  obtain ⟨s1, e1, n1, t1⟩ := h3 i s hs
  obtain ⟨s2, e2, n2, t2, -⟩ := c i s1 e1
  refine ⟨s2, e2, n2.trans n1, ?_⟩
  have hlt : i < g.interfaces.length := (List.getElem?_eq_some_iff.1 e1).1
  exact t1.trans (t2 (by omega) (by simp only [Group.getInterfaceCount]; omega))

theorem late_iff {cw : ClockWorld} (hs : Steady cw) (k : Nat) (hk : Reached cw k) : cw.late k = (worldOf cw).late k := by
  have h0 := hs.1
  have h1 := hs.2.1
  have h2 := hs.2.2.1
  have h3 := hs.2.2.2.1
  have mono : ∀ k, cw.check 0 ≤ cw.check k := by
    intro k
    induction k with
    | zero => exact Int.le_refl _
    | succ k ih => have := (h3 k).1; have := (h3 k).2; omega
  have hm := mono k
  have hb := hs.2.2.2.2 k hk
  have : (BitVec.ofInt 64 (cw.check k - cw.started)).toNat = (cw.check k - cw.started).toNat := by
    rw [BitVec.toNat_ofInt]
    omega
  rw [Bool.eq_iff_iff]
  unfold ClockWorld.late worldOf tenSeconds testTimeout
  rw [this]
  rw [decide_eq_true_iff, decide_eq_true_iff]
  omega

/-- Forgetting what is printed. -/
def forget : Option (Outcome (Result × Group × List Out)) → Option (Outcome (Result × Group))
  | none => none
  | some (.ub u) => some (.ub u)
  | some (.ok (r, g, _)) => some (.ok (r, g))

theorem forget_andOut (o : List Out) (x : Option (Outcome (Result × Group × List Out))) : forget (andOut o x) = forget x := by
  rcases x with _ | ⟨_⟩ | _ <;> rfl

theorem runTimed_forget {cw : ClockWorld} (hs : Steady cw) (fuel k : Nat) (hk : Reached cw k) (g : Group) (lb : LoopBackTest) (last : Int) :
    forget (runTimed cw fuel k g lb last) = runTest (worldOf cw) fuel k g lb := by
  induction fuel generalizing k g lb last with
  | zero => rfl
  | succ fuel ih =>
    rw [runTimed, runTest, late_iff hs k hk]
    cases hl : (worldOf cw).late k with
    | true => rfl
    | false =>
      have hk' : Reached cw (k + 1) := by
        simp only [worldOf, decide_eq_false_iff_not, Int.not_lt] at hl
        exact .inr hl
      simp only [Bool.false_eq_true, if_false]
      simp only [show (worldOf cw).poll = cw.poll from rfl, show (worldOf cw).recv = cw.recv from rfl]
      cases g.select strictAbs (Duration.fromMicrosecond 100000) true (cw.poll k) with
      | ub u => rfl
      | ok x =>
        simp only []
        cases readAll (cw.recv k) g.getInterfaceCount 0 g (Vector.replicate FramesLen Frame.default) lb with
        | ub u => rfl
        | ok p =>
          obtain ⟨g', lb'⟩ := p
          simp only []
          split
          · split
            · rw [forget_andOut, ih (k + 1) hk']
            · rfl
          · rw [forget_andOut, ih (k + 1) hk']

theorem printAll_right {cw : ClockWorld} {g0 : Group} (hz : ∀ s ∈ g0.interfaces, s.stats = {}) {k : Nat} {g : Group}
    (h : GroupAt cw g0 k g) : RightReport cw g0 k (printAll g) := by
  obtain ⟨h1, h2, h3⟩ := h
  have hp : printAll g = g.interfaces.map printStats := by
    unfold printAll
    have hc : g.getInterfaceCount = g.interfaces.length := by simp only [Group.getInterfaceCount]; omega
    rw [hc]
    have : ∀ (l : List Iface) (m : List Iface), (List.range' m.length l.length).flatMap (fun i => ((m ++ l)[i]?).toList.map printStats) =
        l.map printStats := by
      intro l
      induction l with
      | nil => intro m; rfl
      | cons a l ih =>
        intro m
        rw [List.length_cons, List.range'_succ, List.flatMap_cons, List.map_cons]
        have := ih (m ++ [a])
        rw [List.length_append, List.append_assoc] at this
        rw [List.getElem?_append_right (Nat.le_refl _)]
        simp only [Nat.sub_self, List.getElem?_cons_zero, Option.toList_some, List.map_cons, List.map_nil, List.singleton_append,
          List.length_cons, List.length_nil] at this ⊢
        rw [this]
    have := this g.interfaces []
    simp only [List.length_nil, List.nil_append] at this
    rw [List.range_eq_range']
    exact this
  refine ⟨by rw [hp, List.length_map, h1], fun i l s hl hs => ?_⟩
  obtain ⟨s', e, n, t1, t2, t3⟩ := h3 i s hs
  have hs0 : s.stats = {} := hz s (List.mem_of_getElem? hs)
  rw [hp, List.getElem?_map, e] at hl
  cases hl
  refine ⟨n, fun label v => ?_⟩
  have z1 : s'.stats.rx_total = BitVec.ofNat 64 ((msgsBefore cw i k).filter fun m => Delivers m.frame.can_id).length := by
    rw [t2, hs0]; exact BitVec.zero_add _
  have z2 : s'.stats.rx_dropped = sum64 ((msgsBefore cw i k).flatMap fun m => dropsOf m.cmsgs) := by
    rw [t3, hs0]; exact BitVec.zero_add _
  have z3 : ∀ c : ErrClass, c.stat s'.stats = BitVec.ofNat 64 ((msgsBefore cw i k).filter (Reports c)).length := by
    intro c
    rw [t1, hs0]
    have : c.stat ({} : Statistics) = 0#64 := by cases c <;> rfl
    rw [this, BitVec.zero_add]
  change _ ↔ _ ∨ (_ ∧ v = sum64 _) ∨ _
  rw [← z1, ← z2]
  simp only [← z3]
  simp only [printStats, List.mem_cons, Prod.mk.injEq, List.not_mem_nil, or_false]
  constructor
  · rintro (h | h | h | h | h | h | h | h | h | h | h)
    · exact .inl h
    · exact .inr (.inl h)
    · exact .inr (.inr ⟨.ack, h⟩)
    · exact .inr (.inr ⟨.busOff, h⟩)
    · exact .inr (.inr ⟨.busError, h⟩)
    · exact .inr (.inr ⟨.crtl, h⟩)
    · exact .inr (.inr ⟨.txTimeout, h⟩)
    · exact .inr (.inr ⟨.lostArb, h⟩)
    · exact .inr (.inr ⟨.prot, h⟩)
    · exact .inr (.inr ⟨.trx, h⟩)
    · exact .inr (.inr ⟨.restarted, h⟩)
  · rintro (h | h | ⟨c, h⟩)
    · exact .inl h
    · exact .inr (.inl h)
    · cases c <;> simp only [errLabel, ErrClass.stat] at h <;> simp [h]

theorem reached {cw : ClockWorld} (hs : Steady cw) {n : Nat} (h : ∀ j, 0 ≤ j → j < n → cw.late j = false) : Reached cw n := by
  induction n with
  | zero => exact .inl rfl
  | succ n ih =>
    have h1 := h n (by omega) (by omega)
    rw [late_iff hs n (ih fun j a b => h j a (by omega))] at h1
    simp only [worldOf, decide_eq_false_iff_not, Int.not_lt] at h1
    exact .inr h1

/-- What a run prints from round `k` on, the last report before having been at `last`: reports and perhaps the line about the
time-out. -/
structure RunOut (cw : ClockWorld) (g0 : Group) (cont : Bool) (k : Nat) (last : Int) (r : Result) (outs : List Out) (n : Nat)
    (reps : List (Int × List StatLine)) : Prop where
  le : k ≤ n
  early : ∀ j, k ≤ j → j < n → cw.late j = false
  ends : (cw.late n = true ∧ outs = reps.map (fun p => .report p.1 p.2) ++ [.timedOut (cw.check n) 10]) ∨
    (k < n ∧ cont = false ∧ r = .Success ∧ outs = reps.map fun p => .report p.1 p.2)
  spaced : (last :: reps.map Prod.fst).Pairwise fun a b => oneSecond ≤ b - a
  recent : ∀ j, k ≤ j → j < n → ∃ t ∈ last :: reps.map Prod.fst, t ≤ cw.after j ∧ cw.after j - t < oneSecond
  right : ∀ p ∈ reps, ∃ j, k ≤ j ∧ j < n ∧ p.1 = cw.after j ∧ RightReport cw g0 j p.2

theorem after_mono {cw : ClockWorld} (hs : Steady cw) {j k : Nat} (h : j ≤ k) : cw.after j ≤ cw.after k := by
  induction k with
  | zero => rw [Nat.le_zero.1 h]; exact Int.le_refl _
  | succ k ih =>
    rcases Nat.eq_or_lt_of_le h with rfl | h
    · exact Int.le_refl _
    · have h1 := ih (by omega)
      have h2 := hs.2.2.2.1 k
      have h3 := hs.2.2.2.1 (k + 1)
      omega

/-- One more round before. -/
theorem RunOut.cons {cw : ClockWorld} {g0 g : Group} {cont : Bool} {k : Nat} {last : Int} {r : Result} {outs : List Out} {n : Nat}
    {reps : List (Int × List StatLine)} (hl : cw.late k = false) (hz : ∀ s ∈ g0.interfaces, s.stats = {}) (hg : GroupAt cw g0 k g)
    (hlast : last ≤ cw.after k)
    (h : RunOut cw g0 cont (k + 1) (if due (cw.after k) last then cw.after k else last) r outs n reps) :
    RunOut cw g0 cont k last r ((if due (cw.after k) last then [.report (cw.after k) (printAll g)] else []) ++ outs) n
      ((if due (cw.after k) last then [(cw.after k, printAll g)] else []) ++ reps) := by
  obtain ⟨h1, h2, h3, h4, h5, h6⟩ := h
  have hearly : ∀ j, k ≤ j → j < n → cw.late j = false := by
    intro j hj hn
    rcases Nat.eq_or_lt_of_le hj with rfl | hj
    · exact hl
    · exact h2 j hj hn
  cases hd : due (cw.after k) last with
  | true =>
    have hd' : oneSecond ≤ cw.after k - last := by
      simp only [due, ge_iff_le, decide_eq_true_eq] at hd
      exact hd
    rw [hd] at h4 h5
    simp only [if_true, List.cons_append, List.nil_append] at h4 h5 ⊢
    refine ⟨by omega, hearly, ?_, ?_, ?_, ?_⟩
    · rcases h3 with ⟨a, b⟩ | ⟨a, b, c, d⟩
      · exact .inl ⟨a, by rw [b]; rfl⟩
      · exact .inr ⟨by omega, b, c, by rw [d]; rfl⟩
    · refine List.pairwise_cons.2 ⟨?_, h4⟩
      intro b hb
      rcases List.mem_cons.1 hb with rfl | hb
      · exact hd'
      · have := (List.pairwise_cons.1 h4).1 b hb
        have : (0 : Int) ≤ oneSecond := by decide
        omega
    · intro j hj hn
      rcases Nat.eq_or_lt_of_le hj with rfl | hj
      · exact ⟨cw.after k, .tail _ (.head _), Int.le_refl _, by rw [Int.sub_self]; decide⟩
      · obtain ⟨t, ht, a⟩ := h5 j hj hn
        exact ⟨t, .tail _ ht, a⟩
    · intro p hp
      rcases List.mem_cons.1 hp with rfl | hp
      · exact ⟨k, Nat.le_refl _, by omega, rfl, printAll_right hz hg⟩
      · obtain ⟨j, a, b⟩ := h6 p hp
        exact ⟨j, by omega, b⟩
  | false =>
    have hd' : cw.after k - last < oneSecond := by
      simp only [due, ge_iff_le, decide_eq_false_iff_not, Int.not_le] at hd
      exact hd
    rw [hd] at h4 h5
    simp only [Bool.false_eq_true, if_false, List.nil_append] at h4 h5 ⊢
    refine ⟨by omega, hearly, ?_, h4, ?_, ?_⟩
    · rcases h3 with h | ⟨a, b⟩
      · exact .inl h
      · exact .inr ⟨by omega, b⟩
    · intro j hj hn
      rcases Nat.eq_or_lt_of_le hj with rfl | hj
      · exact ⟨last, .head _, hlast, hd'⟩
      · exact h5 j hj hn
    · intro p hp
      obtain ⟨j, a, b⟩ := h6 p hp
      exact ⟨j, by omega, b⟩

theorem runTimed_out {cw : ClockWorld} (hs : Steady cw) (hv : ∀ k i, ValidRecv (cw.recv k i)) {g0 : Group}
    (hz : ∀ s ∈ g0.interfaces, s.stats = {}) (fuel k : Nat) (g : Group) (lb : LoopBackTest) (last : Int) (hg : GroupAt cw g0 k g)
    (hlast : last ≤ cw.check k) (r : Result) (g' : Group) (outs : List Out)
    (h : runTimed cw fuel k g lb last = some (.ok (r, g', outs))) : ∃ n reps, RunOut cw g0 lb.continuous k last r outs n reps := by
  induction fuel generalizing k g lb last outs with
  | zero => cases h
  | succ fuel ih =>
    rw [runTimed] at h
    cases hl : cw.late k with
    | true =>
      rw [hl] at h
      cases h
      exact ⟨k, [], Nat.le_refl _, fun j _ _ => by omega, .inl ⟨hl, rfl⟩, List.pairwise_singleton .., fun j _ _ => by omega, nofun⟩
    | false =>
      rw [hl] at h
      simp only [Bool.false_eq_true, if_false] at h
      have hck := hs.2.2.2.1 k
      have hla : last ≤ cw.after k := by omega
      have hlast' : (if due (cw.after k) last then cw.after k else last) ≤ cw.check (k + 1) := by
        split <;> omega
      split at h
      · cases h
      · split at h
        · cases h
        · rename_i g1 lb1 hra
          obtain ⟨hg1, hc1⟩ := hg.step hv hra
          have more : ∀ lb2 : LoopBackTest, lb2.continuous = lb.continuous →
              andOut (if due (cw.after k) last then [.report (cw.after k) (printAll g)] else [])
                (runTimed cw fuel (k + 1) g1 lb2 (if due (cw.after k) last then cw.after k else last)) = some (.ok (r, g', outs)) →
              ∃ n reps, RunOut cw g0 lb.continuous k last r outs n reps := by
            intro lb2 hc2 h
            cases hx : runTimed cw fuel (k + 1) g1 lb2 (if due (cw.after k) last then cw.after k else last) with
            | none => rw [hx] at h; cases h
            | some o =>
              rw [hx] at h
              cases o with
              | ub u => cases h
              | ok p =>
                obtain ⟨r2, g2, os⟩ := p
                simp only [andOut] at h
                cases h
                obtain ⟨n, reps, hro⟩ := ih (k + 1) g1 lb2 _ hg1 hlast' os hx
                rw [hc2] at hro
                exact ⟨n, _, hro.cons hl hz hg hla⟩
          split at h
          · split at h
            · exact more { lb1 with result := .Success } hc1 h
            · rename_i hcont
              injection h with h; injection h with h; injection h with ha h; injection h with hb hc
              subst ha hb hc
              have hnc : lb.continuous = false := by
                rw [← hc1]; exact Bool.eq_false_iff.2 hcont
              refine ⟨k + 1, if due (cw.after k) last then [(cw.after k, printAll g)] else [], by omega, ?_, .inr ⟨by omega, hnc, rfl, ?_⟩,
                ?_, ?_, ?_⟩
              · intro j hj hn
                rw [show j = k by omega]; exact hl
              · split <;> rfl
              · cases hd : due (cw.after k) last with
                | true =>
                  simp only [due, ge_iff_le, decide_eq_true_eq] at hd
                  simp only [if_true, List.map_cons, List.map_nil, List.pairwise_cons, List.mem_singleton, forall_eq, List.not_mem_nil,
                    false_implies, implies_true, List.Pairwise.nil, and_true]
                  exact hd
                | false => exact List.pairwise_singleton ..
              · intro j hj hn
                rw [show j = k by omega]
                cases hd : due (cw.after k) last with
                | true => exact ⟨cw.after k, .tail _ (.head _), Int.le_refl _, by rw [Int.sub_self]; decide⟩
                | false =>
                  simp only [due, ge_iff_le, decide_eq_false_iff_not, Int.not_le] at hd
                  exact ⟨last, .head _, hla, hd⟩
              · intro p hp
                split at hp
                · rw [List.mem_singleton.1 hp]
                  exact ⟨k, Nat.le_refl _, by omega, rfl, printAll_right hz hg⟩
                · cases hp
          · exact more _ hc1 h

theorem write_stats {g : Group} {i : Nat} {frames : Vector FrameT FramesLen} {n out : Nat} {ans : SysAns} {r : Group.WriteOut}
    (h : g.write i frames n out ans = .ok r) : r.group.interfaces.map (fun s => (s.name, s.stats)) = g.interfaces.map fun s => (s.name, s.stats) := by
  unfold Group.write at h
  split at h
  · cases h; rfl
  · rename_i s hs
    obtain ⟨w, hw, h⟩ := Outcome.bind_eq_ok.1 h
    cases h
    have he : w.iface.name = s.name ∧ w.iface.stats = s.stats := by
      unfold Iface.write at hw
      split at hw
      · cases hw; exact ⟨rfl, rfl⟩
      · obtain ⟨b, -, hw⟩ := Outcome.bind_eq_ok.1 hw
        simp only [] at hw
        split at hw
        · split at hw <;> (cases hw; exact ⟨rfl, rfl⟩)
        · split at hw <;> (cases hw; exact ⟨rfl, rfl⟩)
    obtain ⟨hlt, hs⟩ := List.getElem?_eq_some_iff.1 hs
    simp only [List.map_set, he.1, he.2]
    rw [← hs]
    have : (g.interfaces[i].name, g.interfaces[i].stats) = (g.interfaces.map fun s => (s.name, s.stats))[i]'(by rw [List.length_map]; exact hlt) := by
      rw [List.getElem_map]
    rw [this, List.set_getElem_self]

theorem writeAll_stats {tests : Vector FrameT FramesLen} {ans : Nat → SysAns} {n i : Nat} {g g' : Group} {found : List (BitVec 32)}
    {fo : Option (List (BitVec 32))} {evs : List FdEv} (h : writeAll tests ans n i g found = .ok (g', fo, evs)) :
    g'.interfaces.map (fun s => (s.name, s.stats)) = g.interfaces.map fun s => (s.name, s.stats) := by
  induction n generalizing i g found fo evs with
  | zero => cases h; rfl
  | succ n ih =>
    rw [writeAll] at h
    obtain ⟨r, hr, h⟩ := Outcome.bind_eq_ok.1 h
    have h1 := write_stats hr
    simp only [] at h
    split at h
    · obtain ⟨⟨g2, fo2, evs2⟩, h2, h⟩ := Outcome.bind_eq_ok.1 h
      cases h
      exact (ih h2).trans h1
    · cases h; exact h1

/-- The group `start_test` gives back: at most 255 interfaces, all statistics 0. -/
theorem startTest_fresh {names : List String} {cont : Bool} {opn : Nat → OpenAns} {snd : Nat → SysAns} {fuel : Nat} {g : Group}
    {lb : LoopBackTest} {evs : List FdEv}
    (h : startTest ⟨names, true, true⟩ (LoopBackTest.mk' cont) opn snd fuel = some (.ok (some g, lb, evs))) :
    g.interfaces.length ≤ 255 ∧ ∀ s ∈ g.interfaces, s.stats = {} := by
  rcases Nat.lt_or_ge 255 names.length with hl | hl
  · rw [startTest_forever names cont opn snd hl fuel] at h; cases h
  unfold startTest at h
  simp only [LoopBackTest.mk', List.length_nil, Nat.lt_irrefl, if_false, Bool.not_true, Bool.false_eq_true] at h
  split at h
  · cases h
  · cases h
  · rename_i r og evs1 hst
    split at h
    · rename_i hf
      injection h with h; injection h with h; injection h with h1 h2
      subst h1
      rw [Manager.startInterfaceGroup] at hst
      split at hst
      · cases hst
      · cases hst
      · split at hst
        · injection hst with hst; injection hst with hst; injection hst with _ hst; injection hst with hst; cases hst
        · injection hst with hst; injection hst with hst; injection hst with hst
          subst hst
          revert hf
          split <;> simp [Result.isFailure, Result.not, Result.code]
    · rename_i hf
      split at h
      · cases h
      · rename_i g0
        have hsuc : r.isSuccess = true := by
          revert hf
          cases r <;> simp [Result.isFailure, Result.isSuccess, Result.not, Result.code]
        have hg0 := (start_success goodFilters_test hst hsuc).1
        injection h with h
        obtain ⟨ts, -, h⟩ := Outcome.bind_eq_ok.1 h
        obtain ⟨⟨g1, fo, sent⟩, hw, h⟩ := Outcome.bind_eq_ok.1 h
        have hst := writeAll_stats hw
        have hgg : g1 = g := by
          simp only [] at h
          split at h
          · cases h
          · split at h
            · cases h; rfl
            · cases h
        subst hgg
        have hlen := congrArg List.length hst
        rw [List.length_map, List.length_map, hg0] at hlen
        have := (openedFrom_length ⟨names, true, true⟩ opn 0 names).1
        refine ⟨by simp only at hlen; omega, fun s hs => ?_⟩
        have hm : (s.name, s.stats) ∈ g0.interfaces.map fun s => (s.name, s.stats) := by
          rw [← hst]; exact List.mem_map_of_mem (f := fun s : Iface => (s.name, s.stats)) hs
        obtain ⟨s0, hs0, he⟩ := List.mem_map.1 hm
        rw [hg0] at hs0
        obtain ⟨j, hj, rfl, -⟩ := openedFrom_mem _ opn 0 names s0 hs0
        injection he with _ he
        exact he.symm

end Uavcan.SocketCan
