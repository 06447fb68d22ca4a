import Verif.Lemmas.ExampleMain
import Verif.Props.SocketManager
import Verif.Props.ParseArgs

/-!
# C51, C59, C60: the example's loopback test and its `main`
-/

namespace Uavcan.SocketCan
open Can Time Spec ParseArgs

/-! ## C51 -/

/-- C51: however the kernel's answers arrive, a test that was started on a group (nothing found yet) returns once the time-out
passes in round `n`, if not before; it returns `Success` exactly if, on every interface of the group, both test frames have
come back before the time-out, and `Failure` otherwise. -/
theorem C51_run_test (wd : World) (hv : ∀ k i, ValidRecv (wd.recv k i)) (n : Nat) (hl : wd.late n = true)
    (he : ∀ k, k < n → wd.late k = false) (g : Group) (h0 : 0 < g.getInterfaceCount) (continuous : Bool) :
    ∃ fuel r g', runTest wd fuel 0 g ⟨List.replicate g.getInterfaceCount 0, continuous, .Failure⟩ = some (.ok (r, g')) ∧
      (r = .Success ↔ ∀ i j, i < g.getInterfaceCount → j < 2 → CameBack wd i j n) ∧
      (r = .Success ∨ r = .Failure) := by
  have hno : ∀ i j, ¬ CameBack wd i j 0 := by rintro i j ⟨k, h, -⟩; omega
  obtain ⟨r, g', e, -, a, b⟩ := runTest_ok wd hv n hl he n 0 (by omega) g h0
    ⟨List.replicate g.getInterfaceCount 0, continuous, .Failure⟩ (records_replicate _ _ hno)
    ⟨fun h => (by cases h), fun h => absurd (h 0 0 h0 (by decide)) (hno 0 0)⟩ (.inr rfl)
  exact ⟨n + 1, r, g', e, a, b⟩

/-- C51: that is the state `start_test` leaves behind whenever it gives back a group. -/
theorem C51_start_test (names : List String) (cont : Bool) (opn : Nat → OpenAns) (snd : Nat → SysAns) (fuel : Nat) (g : Group)
    (lb : LoopBackTest) (evs : List FdEv)
    (h : startTest ⟨names, true, true⟩ (LoopBackTest.mk' cont) opn snd fuel = some (.ok (some g, lb, evs))) :
    0 < g.getInterfaceCount ∧ lb = ⟨List.replicate g.getInterfaceCount 0, cont, .Failure⟩ := by
  rcases Nat.lt_or_ge 255 names.length with hl | hl
  · rw [startTest_forever names cont opn snd hl fuel] at h; cases h
  · obtain ⟨og, lb', evs', evs0, sent, ts, h1, -, -, -, h2, -⟩ := startTest_ok names cont opn snd hl (fuel + (names.length + 1)) (by omega)
    rw [startTest_mono h (names.length + 1)] at h1
    injection h1 with h1; injection h1 with h1; injection h1 with ha hb
    injection hb with hb hc
    obtain ⟨-, -, -, -, p, q⟩ := h2 g ha.symm
    exact ⟨p, hb.trans q⟩

/-- C51: whenever `start_test` gives back a group, it has sent both test frames once on every interface of that group, and
nothing else. -/
theorem C51_sends (names : List String) (cont : Bool) (opn : Nat → OpenAns) (snd : Nat → SysAns) (fuel : Nat) (g : Group)
    (lb : LoopBackTest) (evs : List FdEv)
    (h : startTest ⟨names, true, true⟩ (LoopBackTest.mk' cont) opn snd fuel = some (.ok (some g, lb, evs))) :
    (sendsOf evs).map Prod.fst = g.interfaces.map Iface.fd ∧
      ∀ p ∈ sendsOf evs, ∃ a b, p.2 = [a, b] ∧ IsTestOut 0 a ∧ IsTestOut 1 b := by
  rcases Nat.lt_or_ge 255 names.length with hl | hl
  · rw [startTest_forever names cont opn snd hl fuel] at h; cases h
  · obtain ⟨og, lb', evs', evs0, sent, ts, h1, hev, ht, hse, h2, -⟩ :=
      startTest_ok names cont opn snd hl (fuel + (names.length + 1)) (by omega)
    rw [startTest_mono h (names.length + 1)] at h1
    injection h1 with h1; injection h1 with h1; injection h1 with ha hb
    injection hb with hb hc
    obtain ⟨p1, p2, p3, -⟩ := h2 g ha.symm
    have hevs : sendsOf evs = sendsOf sent := by rw [hc, p1, sendsOf_append, hev.noSend, List.nil_append]
    rw [hevs]
    refine ⟨?_, (hse.sent ht).2⟩
    rw [(hse.sent ht).1, p2, show g.interfaces.map Iface.fd = fdsOf g from rfl, p3, ← List.length_map (as := openedFrom _ _ _ _) Iface.fd,
      List.take_length]

/-- A message with an identifier and no payload. -/
def plainMsg (id : BitVec 32) : RxMsg := ⟨true, ⟨id, 0, 0, 0, 0, Vector.replicate 64 0⟩, []⟩

/-- Two interfaces; the frames come back in different rounds. -/
def exampleWorld : World where
  late k := decide (2 ≤ k)
  poll _ := ⟨0, []⟩
  recv k i :=
    if k = 0 ∧ i = 0 then ⟨2, 0, [plainMsg 0x80000002, plainMsg 0x80000001]⟩
    else if k = 0 ∧ i = 1 then ⟨1, 0, [plainMsg 0x80000001]⟩
    else if k = 1 ∧ i = 1 then ⟨1, 0, [plainMsg 0x80000002]⟩
    else ⟨-1, 11, []⟩

theorem exampleWorld_valid : ∀ k i, ValidRecv (exampleWorld.recv k i) := by
  intro k i
  simp only [exampleWorld]
  split
  · exact ⟨by decide, fun _ => rfl⟩
  · split
    · exact ⟨by decide, fun _ => rfl⟩
    · split
      · exact ⟨by decide, fun _ => rfl⟩
      · exact ⟨by decide, fun h => absurd h (by decide)⟩

theorem exampleWorld_back : ∀ i j, i < 2 → j < 2 → CameBack exampleWorld i j 2 := by
  intro i j hi hj
  have h0 : IsTest 0 (plainMsg 0x80000001) := ⟨by decide, by decide, rfl⟩
  have h1 : IsTest 1 (plainMsg 0x80000002) := ⟨by decide, by decide, rfl⟩
  rcases (by omega : i = 0 ∨ i = 1) with rfl | rfl <;> rcases (by omega : j = 0 ∨ j = 1) with rfl | rfl
  · exact ⟨0, by omega, _, .tail _ (.head _), h0⟩
  · exact ⟨0, by omega, _, .head _, h1⟩
  · exact ⟨0, by omega, _, .head _, h0⟩
  · exact ⟨1, by omega, _, .head _, h1⟩

example : ∃ fuel g', runTest exampleWorld fuel 0 ⟨[Iface.mk' 0 "a" 3, Iface.mk' 1 "b" 4]⟩ ⟨[0, 0], false, .Failure⟩ =
    some (.ok (.Success, g')) := by
  obtain ⟨fuel, r, g', e, a, -⟩ := C51_run_test exampleWorld exampleWorld_valid 2 rfl
    (fun k hk => decide_eq_false (by omega)) ⟨[Iface.mk' 0 "a" 3, Iface.mk' 1 "b" 4]⟩ (by decide) false
  rw [a.2 exampleWorld_back] at e
  exact ⟨fuel, g', e⟩

/-- Two interfaces, of which the second takes only one of the frames. -/
example : ∃ g lb evs, startTest ⟨["a", "b"], true, true⟩ (LoopBackTest.mk' false) (fun k => { socket := 3 + k })
      (fun k => ⟨if k = 0 then 2 else 1, 0⟩) 3 = some (.ok (some g, lb, evs)) ∧
    (sendsOf evs).map (fun p => (p.1, p.2.map fun f => (f.can_id, f.len))) =
      [(3, [(0x80000001, 0), (0x80000002, 0)]), (4, [(0x80000001, 0), (0x80000002, 0)])] := ⟨_, _, _, rfl, rfl⟩

/-! ## C59 -/

/-- The manager `main` creates. -/
def mainManager (ns : Namespace) : Manager := ⟨ns.devices.map String.ofList, true, true⟩

/-- C59 as stated in `properties.jsonl`. -/
def C59_Statement : Prop :=
  ∀ (args : List Str) (env : Env) (n : Nat) (ns : Namespace),
    (∀ k i, ValidRecv (env.world.recv k i)) → env.world.late n = true → (∀ k, k < n → env.world.late k = false) →
    parseArgs args = .ok (.Success, ns) →
    ∃ fuel code evs, exampleMain args env fuel = some (.ok (code, evs)) ∧
      (code = 0 ↔ ∀ i, i < ns.devices.length →
        (∃ d, ns.devices[i]? = some d ∧ CanOpen (mainManager ns) (String.ofList d) (env.opn i)) ∧ 0 < (env.snd i).res ∧
        ∀ j, j < 2 → CameBack env.world i j n)

/-- C59: a command line that is not accepted gives the status -1, and no device is touched. -/
theorem C59_rejected (args : List Str) (env : Env) (fuel : Nat) (h : ∀ ns, parseArgs args ≠ .ok (.Success, ns)) (code : Int)
    (evs : List FdEv) (hm : exampleMain args env fuel = some (.ok (code, evs))) : code = -1 ∧ evs = [] := by
  unfold exampleMain at hm
  split at hm
  · cases hm
  · rename_i r ns e
    by_cases hr : r = .Success
    · subst hr; exact absurd e (h ns)
    · rw [if_pos hr] at hm
      injection hm with hm; injection hm with hm; injection hm with h1 h2
      subst h1 h2
      exact ⟨rfl, rfl⟩

/-- C59, partial: with up to 255 devices, and descriptor 0 in use, the exit status is 0 exactly if at least one device could be opened and every one *that
could be opened* took a test frame and gave back both. Missing: devices that could not be opened do not count, and more than
255 devices. -/
theorem C59_exit_status_partial (args : List Str) (env : Env) (n : Nat) (ns : Namespace)
    (hv : ∀ k i, ValidRecv (env.world.recv k i)) (hl : env.world.late n = true)
    (he : ∀ k, k < n → env.world.late k = false) (hp : parseArgs args = .ok (.Success, ns)) (h255 : ns.devices.length ≤ 255)
    (hz : ∀ i, (env.opn i).socket ≠ 0) :
    ∃ fuel code evs, exampleMain args env fuel = some (.ok (code, evs)) ∧ (code = 0 ∨ code = -1) ∧
      (code = 0 ↔
        let opened := grantedIfaces (mainManager ns) env.opn
        opened ≠ [] ∧ ∀ i, i < opened.length → 0 < (env.snd i).res ∧ ∀ j, j < 2 → CameBack env.world i j n) := by
  have hlen : (ns.devices.map String.ofList).length ≤ 255 := by rw [List.length_map]; exact h255
  obtain ⟨og, lb, evs, evs0, sent, ts, h1, -, -, -, h3, -, h5⟩ := startTest_ok (ns.devices.map String.ofList) ns.run_continuously env.opn env.snd hlen
    (256 + n) (by omega)
  have hg : (openedFrom (mainManager ns) env.opn 0 (ns.devices.map String.ofList)).map (fun s => (s.name, s.fd)) =
      grantedIfaces (mainManager ns) env.opn := openedFrom_eq (mainManager ns) env.opn 0 _ hz
  have hgl : (openedFrom (mainManager ns) env.opn 0 (ns.devices.map String.ofList)).length =
      (grantedIfaces (mainManager ns) env.opn).length := by rw [← hg, List.length_map]
  have hgn : openedFrom (mainManager ns) env.opn 0 (ns.devices.map String.ofList) = [] ↔
      grantedIfaces (mainManager ns) env.opn = [] := by
    rw [← List.length_eq_zero_iff, hgl, List.length_eq_zero_iff]
  simp only [show (⟨ns.devices.map String.ofList, true, true⟩ : Manager) = mainManager ns from rfl, hgl, ne_eq, hgn] at h3 h5
  have h1' : startTest ⟨ns.devices.map String.ofList, true, true⟩ (LoopBackTest.mk' ns.run_continuously) env.opn env.snd (256 + n) =
      some (.ok (og, lb, evs)) := h1
  simp only [exampleMain, hp, ne_eq, not_true, if_false]
  cases og with
  | none =>
    refine ⟨256 + n, -1, evs, by rw [h1'], .inr rfl, ?_⟩
    constructor
    · intro h; omega
    · rintro ⟨a, b⟩
      exact absurd rfl (h5.2 ⟨a, fun k hk => (b k hk).1⟩)
  | some g =>
    obtain ⟨-, -, -, hc, hpos, hlb⟩ := h3 g rfl
    have hsend := h5.1 (by simp)
    have hno : ∀ i j, ¬ CameBack env.world i j 0 := by rintro i j ⟨k, h, -⟩; omega
    have hlb' : Records lb.found g.getInterfaceCount (fun i j => CameBack env.world i j 0) := by
      rw [hlb]; exact records_replicate _ _ hno
    obtain ⟨r, g', e, -, a, b⟩ := runTest_ok env.world hv n hl he n 0 (by omega) g hpos lb hlb'
      ⟨fun h => (by rw [hlb] at h; cases h), fun h => absurd (h 0 0 hpos (by decide)) (hno 0 0)⟩ (.inr (by rw [hlb]))
    have e' : runTest env.world (256 + n) 0 g lb = some (.ok (r, g')) := by
      have := runTest_mono e 255
      rw [show n + 1 + 255 = 256 + n by omega] at this
      exact this
    refine ⟨256 + n, if r.not then -1 else 0, evs ++ closeGroup (some g'), by rw [h1']; simp only [e']; rfl, ?_, ?_⟩
    · split <;> simp
    · rw [hc] at a
      have : (if r.not = true then (-1 : Int) else 0) = 0 ↔ r = .Success := by
        rcases b with rfl | rfl <;> decide
      rw [this, a]
      constructor
      · intro h; exact ⟨hsend.1, fun i hi => ⟨hsend.2 i hi, fun j hj => h i j hi hj⟩⟩
      · rintro ⟨-, h⟩ i j hi hj; exact (h i hi).2 j hj

/-- The second of two devices does not exist; the first one works. -/
def missingEnv : Env where
  opn i := if i = 0 then { socket := 3 } else { socket := 4, ioctl := -1 }
  snd _ := ⟨2, 0⟩
  world :=
    { late := fun k => decide (1 ≤ k), poll := fun _ => ⟨1, [1]⟩,
      recv := fun _ i => if i = 0 then ⟨2, 0, [plainMsg 0x80000002, plainMsg 0x80000001]⟩ else ⟨-1, 11, []⟩ }

/-- C59 is false of the code: the example reports success although one of the devices it was given does not exist. -/
theorem C59_full_statement_fails : ¬ C59_Statement := by
  intro h
  have hv : ∀ k i, ValidRecv (missingEnv.world.recv k i) := by
    intro k i
    simp only [missingEnv]
    split
    · exact ⟨by decide, fun _ => rfl⟩
    · exact ⟨by decide, fun h => absurd h (by decide)⟩
  have hp : parseArgs ["-da".toList, "-db".toList] = .ok (.Success, ⟨["a".toList, "b".toList], false⟩) :=
    ((C52_devices_partial [.shortCat "a".toList, .shortCat "b".toList] (by simp [Item.Valid])).2 (by decide)).2
      (by simp [Item.device?, Item.isLong])
  obtain ⟨f1, c1, e1, m1, i1⟩ := h _ missingEnv 1 _ hv rfl (fun k hk => decide_eq_false (by omega)) hp
  obtain ⟨f2, c2, e2, m2, -, i2⟩ := C59_exit_status_partial _ missingEnv 1 _ hv rfl (fun k hk => decide_eq_false (by omega)) hp
    (by decide) (by intro i; simp only [missingEnv]; split <;> decide)
  have heq : c1 = c2 := by
    have a := exampleMain_mono m1 f2
    have b := exampleMain_mono m2 f1
    rw [Nat.add_comm, b] at a
    injection a with a; injection a with a; injection a with a _
    exact a.symm
  have hgr : grantedIfaces (mainManager ⟨["a".toList, "b".toList], false⟩) missingEnv.opn = [("a", 3)] := by decide
  have h0 : IsTest 0 (plainMsg 0x80000001) := ⟨by decide, by decide, rfl⟩
  have h1 : IsTest 1 (plainMsg 0x80000002) := ⟨by decide, by decide, rfl⟩
  have hz : c2 = 0 := by
    apply i2.2
    rw [hgr]
    refine ⟨by simp, fun i hi => ⟨by show (0 : Int) < 2; decide, fun j hj => ?_⟩⟩
    have : i = 0 := by simpa using hi
    subst this
    rcases (by omega : j = 0 ∨ j = 1) with rfl | rfl
    · exact ⟨0, by omega, _, .tail _ (.head _), h0⟩
    · exact ⟨0, by omega, _, .head _, h1⟩
  obtain ⟨⟨d, -, hd⟩, -⟩ := i1.1 (heq.trans hz) 1 (by decide)
  exact absurd hd.2.2.2.2.1 (by decide)

/-! ## C60 -/

/-- C60: if the example is started with descriptor 0 (standard input) open then, whatever the arguments and the answers of the
system: when it exits, it has closed every socket it opened, exactly once, and nothing else, and used none of them after that. -/
theorem C60_sockets_closed (args : List Str) (env : Env) (fuel : Nat) (code : Int) (evs : List FdEv)
    (h : exampleMain args env fuel = some (.ok (code, evs))) (o : List Int) (ho : o.Nodup) (h0 : (0 : Int) ∈ o)
    (hf : Fresh o evs) :
    NoBadClose o evs ∧ (openAfter o evs).Nodup ∧ ∀ fd, fd ∈ openAfter o evs ↔ fd ∈ o := by
  unfold exampleMain at h
  split at h
  · injection h with h; cases h
  · rename_i r ns hp
    split at h
    · injection h with h; injection h with h; injection h with _ h; subst h
      exact ⟨trivial, ho, fun _ => Iff.rfl⟩
    · simp only at h
      -- everything that was opened is closed again, in both cases
      have key : ∀ og lb evs1, startTest ⟨ns.devices.map String.ofList, true, true⟩ (LoopBackTest.mk' ns.run_continuously)
          env.opn env.snd fuel = some (.ok (og, lb, evs1)) →
          ∃ evs0 sent, LoopEv (filterCall (some testFilters) 1) ⟨ns.devices.map String.ofList, true, true⟩ env.opn 0 (ns.devices.map String.ofList) evs0 ∧
            (∀ e ∈ sent, ∃ fd ∈ (openedFrom ⟨ns.devices.map String.ofList, true, true⟩ env.opn 0
              (ns.devices.map String.ofList)).map Iface.fd, ∃ fs, e = .call fd (.send fs)) ∧
            (∀ g, og = some g → evs1 = evs0 ++ sent ∧ fdsOf g = (openedFrom ⟨ns.devices.map String.ofList, true, true⟩ env.opn 0
              (ns.devices.map String.ofList)).map Iface.fd) ∧
            (og = none → evs1 = evs0 ++ sent ++ ((openedFrom ⟨ns.devices.map String.ofList, true, true⟩ env.opn 0
              (ns.devices.map String.ofList)).map Iface.fd).map .closed) := by
        intro og lb evs1 hs
        rcases Nat.lt_or_ge 255 (ns.devices.map String.ofList).length with hl | hl
        · rw [startTest_forever _ _ env.opn env.snd hl fuel] at hs; cases hs
        · obtain ⟨og', lb', evs', evs0, sent, ts, h1, h2, -, hse, h3, h4, -⟩ := startTest_ok (ns.devices.map String.ofList) ns.run_continuously
            env.opn env.snd hl (fuel + ((ns.devices.map String.ofList).length + 1)) (by omega)
          rw [startTest_mono hs _] at h1
          injection h1 with h1; injection h1 with h1; injection h1 with ha hb
          injection hb with hb hc
          subst ha hc
          exact ⟨evs0, sent, h2, hse.mem, fun g hg => ⟨(h3 g hg).1, (h3 g hg).2.2.1⟩, h4⟩
      have fin : ∀ evs0 sent, LoopEv (filterCall (some testFilters) 1) ⟨ns.devices.map String.ofList, true, true⟩ env.opn 0 (ns.devices.map String.ofList) evs0 →
          (∀ e ∈ sent, ∃ fd ∈ (openedFrom ⟨ns.devices.map String.ofList, true, true⟩ env.opn 0
              (ns.devices.map String.ofList)).map Iface.fd, ∃ fs, e = .call fd (.send fs)) →
          evs = evs0 ++ sent ++ ((openedFrom ⟨ns.devices.map String.ofList, true, true⟩ env.opn 0
              (ns.devices.map String.ofList)).map Iface.fd).map .closed →
          NoBadClose o evs ∧ (openAfter o evs).Nodup ∧ ∀ fd, fd ∈ openAfter o evs ↔ fd ∈ o := by
        intro evs0 sent hl hs he
        subst he
        rw [List.append_assoc, fresh_append] at hf
        obtain ⟨a, b, c, d, l, f⟩ := loop_fds _ env.opn 0 _ evs0 hl o ho hf.1
        have hsame : openAfter (openAfter o evs0) sent = openAfter o evs0 :=
          openAfter_onlyCalls _ _ fun e he => by obtain ⟨fd, -, fs, rfl⟩ := hs e he; exact ⟨_, _, rfl⟩
        have hgood : NoBadClose (openAfter o evs0) sent := noBadClose_onlyCalls _ _ fun e he => by
          obtain ⟨fd, hm, fs, rfl⟩ := hs e he
          exact ⟨fd, (f fd).2 (.inr (.inl hm)), _, rfl⟩
        obtain ⟨p, q, r⟩ := close_fds _ (openAfter o evs0) b c (fun fd h => (f fd).2 (.inr (.inl h)))
        rw [List.append_assoc, noBadClose_append, noBadClose_append, openAfter_append, openAfter_append, hsame]
        refine ⟨⟨a, hgood, p⟩, q, fun fd => ?_⟩
        rw [r, f]
        have := d fd
        grind
      split at h
      · cases h
      · injection h with h; cases h
      · rename_i hs
        obtain ⟨evs0, sent, hl, hse, -, hn⟩ := key _ _ _ hs
        injection h with h; injection h with h; injection h with _ h
        exact fin evs0 sent hl hse (h.symm.trans (hn rfl))
      · rename_i hs
        obtain ⟨evs0, sent, hl, hse, hy, -⟩ := key _ _ _ hs
        split at h
        · cases h
        · injection h with h; cases h
        · rename_i hr
          injection h with h; injection h with h; injection h with _ h
          obtain ⟨y1, y2⟩ := hy _ rfl
          refine fin evs0 sent hl hse ?_
          rw [← h, y1, ← y2, ← runTest_fds hr]
          simp [Manager.stopInterfaceGroup, closeGroup, fdsOf]

/-- The run with the missing device: the socket of the first device is closed at the end, that of the second at once. -/
example : Fresh [0, 1, 2] [.opened 3, .opened 4, .closed 4, .closed 3] ∧
    openAfter [0, 1, 2] [.opened 3, .opened 4, .closed 4, .closed 3] = [0, 1, 2] := by
  refine ⟨by simp [Fresh], by decide⟩

end Uavcan.SocketCan
