import Verif.Lemmas.SocketKernel
import Verif.Props.SocketGroup
import Verif.Props.SocketManager

/-!
# C66–C68: how the sockets are configured, and which frames reach the application
-/

namespace Uavcan.SocketCan
open Spec

/-! ## C66 -/

/-- The property as stated in `properties.jsonl`: on each interface of a started group exactly the settings wanted were made, and
the kernel accepted all of them. `o` are the descriptors open before. -/
def C66_Statement : Prop :=
  ∀ (m : Manager) (fc : Option (List Filter)) (num : Nat) (out : Option Group) (ans : Nat → OpenAns) (fuel : Nat) (r : Result)
    (g : Group) (evs : List FdEv) (o : List Int), (num = 0 ∨ (num < 2 ^ 32 ∧ ∃ l, fc = some l ∧ num ≤ l.length)) →
    m.startInterfaceGroup fc num out ans fuel = some (.ok (r, some g, evs)) → r.isSuccess = true →
    o.Nodup → (∀ fd ∈ owned out, fd ∈ o) → Fresh o evs →
    ∀ i ∈ g.interfaces, ∀ c, (c ∈ callsOf i.fd evs ↔ Wanted m fc num i (ans i.index) c) ∧
      (Wanted m fc num i (ans i.index) c → Accepted (ans i.index) c)

/-- C66, partial: on each interface of a started group whose name has no null character exactly the settings wanted are made, and
the kernel has accepted all of them except, possibly, timestamps, drop counts and error messages. Missing: that these three are
accepted too, and other names; see `C66_full_statement_fails` and `C66_name_fails`. -/
theorem C66_configured_partial (m : Manager) (fc : Option (List Filter)) (num : Nat) (out : Option Group) (ans : Nat → OpenAns)
    (fuel : Nat) (r : Result) (g : Group) (evs : List FdEv) (o : List Int)
    (hf : num = 0 ∨ (num < 2 ^ 32 ∧ ∃ l, fc = some l ∧ num ≤ l.length))
    (h : m.startInterfaceGroup fc num out ans fuel = some (.ok (r, some g, evs))) (hs : r.isSuccess = true)
    (ho : o.Nodup) (hsub : ∀ fd ∈ owned out, fd ∈ o) (hfr : Fresh o evs) :
    ∀ i ∈ g.interfaces, '\x00' ∉ i.name.toList → ∀ c, (c ∈ callsOf i.fd evs ↔ Wanted m fc num i (ans i.index) c) ∧
      (Wanted m fc num i (ans i.index) c → c ≠ .timestamp → c ≠ .rxqOvfl → c ≠ .errFilter → Accepted (ans i.index) c) := by
  intro i hi hn c
  obtain ⟨⟨hc, -⟩, -, hcalls, -⟩ := start_calls hf h hs o ho hsub hfr i hi
  rw [hcalls]
  obtain ⟨-, h2, h3, -, h5, -, h7, h8, h9, -⟩ := hc
  constructor
  · have hcf := configureFilters_ok hf i.fd 0
    unfold setupCalls
    rw [(cName_eq i.name).2 hn]
    cases c <;> cases hx : m.enable_can_fd <;> cases hy : m.receive_own <;> simp [Wanted, hx, hy, hcf]
    all_goals exact eq_comm
  · intro hw n1 n2 n3
    cases c with
    | canFd => exact h2 hw
    | receiveOwn => exact h3 hw
    | ifindex _ => exact h5
    | bind _ => exact h7
    | timestamp => exact absurd rfl n1
    | rxqOvfl => exact absurd rfl n2
    | errFilter => exact absurd rfl n3
    | soError => exact h8
    | filters _ => exact h9
    | send _ => trivial

/-- C66, partial, exactly: the interfaces of a started group are configured as asked if and only if none of their names has a null
character and the kernel accepts timestamps, drop counts and error messages on each. -/
theorem C66_iff_partial (m : Manager) (fc : Option (List Filter)) (num : Nat) (out : Option Group) (ans : Nat → OpenAns)
    (fuel : Nat) (r : Result) (g : Group) (evs : List FdEv) (o : List Int)
    (hf : num = 0 ∨ (num < 2 ^ 32 ∧ ∃ l, fc = some l ∧ num ≤ l.length))
    (h : m.startInterfaceGroup fc num out ans fuel = some (.ok (r, some g, evs))) (hs : r.isSuccess = true)
    (ho : o.Nodup) (hsub : ∀ fd ∈ owned out, fd ∈ o) (hfr : Fresh o evs) :
    (∀ i ∈ g.interfaces, ∀ c, (c ∈ callsOf i.fd evs ↔ Wanted m fc num i (ans i.index) c) ∧
      (Wanted m fc num i (ans i.index) c → Accepted (ans i.index) c)) ↔
    ∀ i ∈ g.interfaces, '\x00' ∉ i.name.toList ∧ 0 ≤ (ans i.index).timestamp ∧ 0 ≤ (ans i.index).rxqOvfl ∧
      0 ≤ (ans i.index).errFilter := by
  constructor
  · intro hall i hi
    refine ⟨?_, (hall i hi .timestamp).2 trivial, (hall i hi .rxqOvfl).2 trivial, (hall i hi .errFilter).2 trivial⟩
    rw [← cName_eq]
    refine (hall i hi (.ifindex (cName i.name))).1.1 ?_
    rw [(start_calls hf h hs o ho hsub hfr i hi).2.2.1]
    unfold setupCalls
    simp
  · intro hall i hi c
    obtain ⟨h0, h1, h2, h3⟩ := hall i hi
    obtain ⟨ha, hb⟩ := C66_configured_partial m fc num out ans fuel r g evs o hf h hs ho hsub hfr i hi h0 c
    refine ⟨ha, fun hw => ?_⟩
    cases c with
    | timestamp => exact h1
    | rxqOvfl => exact h2
    | errFilter => exact h3
    | _ => exact hb hw nofun nofun nofun

/-- C66, partial: in particular, the filters are set exactly once, after the socket was bound. -/
theorem C66_bound_then_filtered_partial (m : Manager) (fc : Option (List Filter)) (num : Nat) (out : Option Group)
    (ans : Nat → OpenAns) (fuel : Nat) (r : Result) (g : Group) (evs : List FdEv) (o : List Int)
    (hf : num = 0 ∨ (num < 2 ^ 32 ∧ ∃ l, fc = some l ∧ num ≤ l.length))
    (h : m.startInterfaceGroup fc num out ans fuel = some (.ok (r, some g, evs))) (hs : r.isSuccess = true)
    (ho : o.Nodup) (hsub : ∀ fd ∈ owned out, fd ∈ o) (hfr : Fresh o evs) :
    ∀ i ∈ g.interfaces, ∃ pre call, callsOf i.fd evs = pre ++ [.filters call] ∧ (∀ c, .filters c ∉ pre) ∧
      .bind (ans i.index).ifindex ∈ pre := by
  intro i hi
  obtain ⟨-, -, hcalls, -⟩ := start_calls hf h hs o ho hsub hfr i hi
  refine ⟨_, _, hcalls, ?_, ?_⟩
  · intro c hc
    unfold setupCalls at hc
    cases hx : m.enable_can_fd <;> cases hy : m.receive_own <;> simp [hx, hy] at hc
  · unfold setupCalls
    simp

/-- C66 is false of the code: an interface whose socket refuses timestamps is used nevertheless. -/
theorem C66_full_statement_fails : ¬ C66_Statement := by
  intro h
  have := (h ⟨["can0"], true, true⟩ none 0 none (fun _ => { socket := 3, timestamp := -1 }) 2 .Success
    ⟨[Iface.mk' 0 "can0" 3]⟩ _ [0, 1, 2] (.inl rfl) rfl rfl (by decide) (by simp [owned])
    (by simp [Fresh, closeGroup]) (Iface.mk' 0 "can0" 3) (List.mem_singleton.2 rfl) .timestamp).2 trivial
  exact absurd (show (0 : Int) ≤ -1 from this) (by decide)

/-- C66 is false of the code even if the kernel accepts everything: asked for an interface with a null character in its name, the
code opens the one whose name ends before it, and reports the name asked for. -/
theorem C66_name_fails : ∃ evs, (⟨["can0\x00b"], false, false⟩ : Manager).startInterfaceGroup none 0 none (fun _ => { socket := 3 }) 2 =
      some (.ok (.Success, some ⟨[Iface.mk' 0 "can0\x00b" 3]⟩, evs)) ∧
    .call 3 (.ifindex "can0") ∈ evs ∧ .call 3 (.ifindex "can0\x00b") ∉ evs := ⟨_, rfl, by decide, by decide⟩

/-- Two interfaces, the old group being replaced. -/
example : ∃ evs, (⟨["can0", "can1"], true, false⟩ : Manager).startInterfaceGroup (some [⟨1, 2⟩]) 1 (some ⟨[Iface.mk' 0 "can0" 3]⟩)
      (fun k => { socket := 4 + k, ifindex := 7 + k }) 3 =
      some (.ok (.Success, some ⟨[Iface.mk' 0 "can0" 4, Iface.mk' 1 "can1" 5]⟩, evs)) ∧
    Fresh [0, 1, 2, 3] evs ∧
    callsOf 5 evs = [.canFd, .ifindex "can1", .bind 8, .timestamp, .rxqOvfl, .errFilter, .soError,
      .filters ⟨5, [⟨0x80000001, 0x80000002⟩], 8⟩] := ⟨_, rfl, by simp [Fresh, closeGroup], by decide⟩

/-! ## C67 -/

/-- The property as stated in `properties.jsonl`: whatever arrives while a group is started and afterwards, the extended data
frames received by its interfaces match one of the filters it was started with. -/
def C67_Statement : Prop :=
  ∀ (m : Manager) (l : List Filter) (out : Option Group) (ans : Nat → OpenAns) (fuel : Nat) (r : Result)
    (g : Group) (es : List KEv) (o : List Int), l.length < 2 ^ 29 →
    m.startInterfaceGroup (some l) l.length out ans fuel = some (.ok (r, some g, progOf es)) → r.isSuccess = true →
    o.Nodup → (∀ fd ∈ owned out, fd ∈ o) → Fresh o (progOf es) →
    ∀ i ∈ g.interfaces, ∀ rx ∈ (sockAfter i.fd es).queue, IsExtData rx = true → ∃ f ∈ l, Matches f rx

theorem extData_notErr {rx : BitVec 32} (h : IsExtData rx = true) : IsErr rx = false := by
  simp only [IsExtData, Bool.and_eq_true, Bool.not_eq_true'] at h
  exact h.2

theorem receives_filterCall {l : List Filter} (hl : l.length < 2 ^ 29) (fd : Int) {rx : BitVec 32} (h : IsExtData rx = true) :
    Receives (filterCall (some l) l.length fd) rx ↔ ∃ f ∈ l, f.mask.getLsbD 29 = false ∧ Matches f rx := by
  obtain ⟨r, call, h1, -, -, h3⟩ := C46_filters_partial fd l 0 hl
  rw [configureFilters_ok (.inr ⟨by omega, l, rfl, Nat.le_refl _⟩)] at h1
  injection h1 with h1; injection h1 with _ h1; injection h1 with h1
  rw [h1]
  exact (h3 rx).1 h

/-- C67, partial: the extended data frames received match one of the filters, except for those that arrived after the socket was
bound and before the filters were set. Missing: these frames are received as well, see `C67_full_statement_fails`. -/
theorem C67_only_matching_partial (m : Manager) (l : List Filter) (out : Option Group) (ans : Nat → OpenAns) (fuel : Nat)
    (r : Result) (g : Group) (es : List KEv) (o : List Int) (hl : l.length < 2 ^ 29)
    (h : m.startInterfaceGroup (some l) l.length out ans fuel = some (.ok (r, some g, progOf es))) (hs : r.isSuccess = true)
    (ho : o.Nodup) (hsub : ∀ fd ∈ owned out, fd ∈ o) (hfr : Fresh o (progOf es)) :
    ∀ i ∈ g.interfaces, ∀ rx ∈ (sockAfter i.fd es).queue, IsExtData rx = true → (∃ f ∈ l, Matches f rx) ∨
      ∃ p x q, es = p ++ .arrive x rx :: q ∧ (sockAfter i.fd p).boundTo = some x ∧ (sockAfter i.fd p).filterSet = none := by
  intro i hi rx hrx hext
  have hgood : GoodFilters (some l) l.length := .inr ⟨by omega, l, rfl, Nat.le_refl _⟩
  obtain ⟨-, -, -, hset⟩ := start_calls hgood h hs o ho hsub hfr i hi
  rcases queue_ok i.fd _ es hset [] rx hrx (extData_notErr hext) with h | h
  · obtain ⟨f, hf, -, hm⟩ := (receives_filterCall hl i.fd hext).1 h
    exact .inl ⟨f, hf, hm⟩
  · rw [List.append_nil] at h
    exact .inr h

/-- C67, partial: once the group is started, an extended data frame arriving on the network interface of one of its interfaces is
received if and only if it matches a filter (one whose mask does not have bit 29 set, see C46); frames arriving
elsewhere are not received. -/
theorem C67_matching_received_partial (m : Manager) (l : List Filter) (out : Option Group) (ans : Nat → OpenAns) (fuel : Nat)
    (r : Result) (g : Group) (es : List KEv) (o : List Int) (hl : l.length < 2 ^ 29)
    (h : m.startInterfaceGroup (some l) l.length out ans fuel = some (.ok (r, some g, progOf es))) (hs : r.isSuccess = true)
    (ho : o.Nodup) (hsub : ∀ fd ∈ owned out, fd ∈ o) (hfr : Fresh o (progOf es)) :
    ∀ i ∈ g.interfaces, ∀ x rx, IsExtData rx = true →
      ((x = (ans i.index).ifindex ∧ ∃ f ∈ l, f.mask.getLsbD 29 = false ∧ Matches f rx) →
        (sockAfter i.fd (es ++ [.arrive x rx])).queue = (sockAfter i.fd es).queue ++ [rx]) ∧
      (¬ (x = (ans i.index).ifindex ∧ ∃ f ∈ l, f.mask.getLsbD 29 = false ∧ Matches f rx) →
        (sockAfter i.fd (es ++ [.arrive x rx])).queue = (sockAfter i.fd es).queue) := by
  intro i hi x rx hext
  have hgood : GoodFilters (some l) l.length := .inr ⟨by omega, l, rfl, Nat.le_refl _⟩
  obtain ⟨-, -, hcalls, -⟩ := start_calls hgood h hs o ho hsub hfr i hi
  rw [← calls_sockAfter] at hcalls
  have hacc : (sockAfter i.fd es).Accepts x rx ↔
      x = (ans i.index).ifindex ∧ ∃ f ∈ l, f.mask.getLsbD 29 = false ∧ Matches f rx := by
    rw [Sock.Accepts, (boundTo_setup hcalls).1, (boundTo_setup hcalls).2, extData_notErr hext,
      ← receives_filterCall hl i.fd hext]
    simp only [Option.some.injEq, Bool.false_eq_true, if_false]
    rw [eq_comm]
  rw [sockAfter_snoc, Sock.step]
  constructor
  · intro hh; rw [if_pos (hacc.2 hh)]
  · intro hh; rw [if_neg (fun h => hh (hacc.1 h))]

/-- A group with one interface is started with a filter for identifier 1; a frame with identifier 2 arrives just after the socket
was bound, one with identifier 3 after the start, then one with identifier 1. -/
def raceTrace : List KEv :=
  [.prog (.opened 3), .prog (.call 3 (.ifindex "can0")), .prog (.call 3 (.bind 1)), .arrive 1 0x80000002#32] ++
  ([.timestamp, .rxqOvfl, .errFilter, .soError, SockCall.filters ⟨3, [⟨0x80000001, 0x9FFFFFFF⟩], 8⟩].map fun c => .prog (.call 3 c)) ++
  [.arrive 1 0x80000003#32, .arrive 1 0x80000001#32]

example : (sockAfter 3 raceTrace).queue = [0x80000002#32, 0x80000001#32] := by decide

/-- C67 is false of the code: the socket is bound before its filters are set, and a frame arriving in between is received although
no filter matches it. -/
theorem C67_full_statement_fails : ¬ C67_Statement := by
  intro h
  obtain ⟨f, hf, hm⟩ := h ⟨["can0"], false, false⟩ [⟨1, 0x1FFFFFFF⟩] none (fun _ => { socket := 3 }) 2 .Success
    ⟨[Iface.mk' 0 "can0" 3]⟩ raceTrace [0, 1, 2] (by decide) rfl rfl (by decide) (by simp [owned])
    (by simp [Fresh, raceTrace, progOf]) (Iface.mk' 0 "can0" 3) (List.mem_singleton.2 rfl) 0x80000002#32
    (by
      show 0x80000002#32 ∈ (sockAfter 3 raceTrace).queue
      decide) (by decide)
  rw [List.mem_singleton.1 hf] at hm
  exact absurd (hm 0 (by decide) (by decide)) (by decide)

/-! ## C68 -/

/-- What `reconfigureFilters` does, as events. -/
def filterEvents (calls : List SetFilter) : List FdEv := calls.map fun a => .call a.fd (.filters a)

/-- The property as stated in `properties.jsonl`: whatever happened before (`es0`), after `reconfigureFilters` has returned success
(`es1`, with whatever arrived meanwhile) the application finds only extended data frames that match one of the new filters. -/
def C68_Statement : Prop :=
  ∀ (g : Group) (l : List Filter) (ans : Nat → Int) (fuel : Nat) (r : Result) (calls : List SetFilter) (es0 es1 : List KEv),
    l.length < 2 ^ 29 → g.reconfigureFilters (some l) l.length ans fuel = some (.ok (r, calls)) → r.isSuccess = true →
    progOf es1 = filterEvents calls →
    ∀ i ∈ g.interfaces, ∀ rx ∈ (sockAfter i.fd (es0 ++ es1)).queue, IsExtData rx = true → ∃ f ∈ l, Matches f rx

theorem reconfLoop_mono {ifs : List Iface} {fc : Option (List Filter)} {num : Nat} {ans : Nat → Int} {fuel i k : Nat}
    {calls : List SetFilter} {x} (h : reconfLoop ifs fc num ans fuel i k calls = some x) (d : Nat) :
    reconfLoop ifs fc num ans (fuel + d) i k calls = some x := by
  induction fuel generalizing i k calls with
  | zero => cases h
  | succ fuel ih =>
    rw [show fuel + 1 + d = fuel + d + 1 by omega]
    rw [reconfLoop] at h ⊢
    split at h
    · exact h
    · split at h
      · exact h
      · split at h
        · rename_i h1; rw [if_pos h1]; exact h
        · rename_i h1; rw [if_neg h1]; exact ih h

theorem filterSet_appended {s : Sock} {cs : List SockCall} {fs : List SetFilter} {c : SetFilter}
    (h : s.calls = cs ++ fs.map .filters) (hne : fs ≠ []) (hc : ∀ a ∈ fs, a = c) : s.filterSet = some c := by
  have : ∀ fs : List SetFilter, (fs.map SockCall.filters).filterMap filterOf = fs := by
    intro fs
    induction fs with
    | nil => rfl
    | cons a t ih => rw [List.map_cons, List.filterMap_cons, ih]; rfl
  rw [Sock.filterSet, h, List.filterMap_append, this, List.getLast?_append, List.getLast?_eq_some_getLast hne,
    hc _ (List.getLast_mem hne)]
  rfl

/-- After `reconfigureFilters` has returned success, each socket has the new filters. -/
theorem reconf_set (g : Group) (hg : g.interfaces.length ≤ 255) (l : List Filter) (ans : Nat → Int) (fuel : Nat)
    (r : Result) (calls : List SetFilter) (es0 es1 : List KEv) (hl : l.length < 2 ^ 29)
    (h : g.reconfigureFilters (some l) l.length ans fuel = some (.ok (r, calls))) (hs : r.isSuccess = true)
    (hp : progOf es1 = filterEvents calls) (i : Iface) (hi : i ∈ g.interfaces) :
    (sockAfter i.fd (es0 ++ es1)).filterSet = some (filterCall (some l) l.length i.fd) := by
  have hgood : GoodFilters (some l) l.length := .inr ⟨by omega, l, rfl, Nat.le_refl _⟩
  obtain ⟨fuel', r', calls', e1, -, e3, e4, -⟩ := C45_reconfigure_partial g hg (some l) l.length ans hgood
  have heq : r' = r ∧ calls' = calls := by
    have a : g.reconfigureFilters (some l) l.length ans (fuel + fuel') = _ := reconfLoop_mono h fuel'
    have b : g.reconfigureFilters (some l) l.length ans (fuel' + fuel) = _ := reconfLoop_mono e1 fuel
    rw [Nat.add_comm, b] at a
    injection a with a; injection a with a; injection a with a1 a2
    exact ⟨a1, a2⟩
  obtain ⟨rfl, rfl⟩ := heq
  obtain ⟨-, e3, -⟩ := e3 hs
  have hcall : ∀ a ∈ calls', a.fd = i.fd → a = filterCall (some l) l.length i.fd := by
    intro a ha hfd
    have := e4 a ha
    rw [configureFilters_ok hgood, hfd] at this
    injection this with this; injection this with _ this; injection this with this
    exact this.symm
  have hcalls : (sockAfter i.fd (es0 ++ es1)).calls =
      (sockAfter i.fd es0).calls ++ (calls'.filter fun a => a.fd = i.fd).map .filters := by
    rw [sockAfter, List.foldl_append, calls_prog i.fd es1 _ _ rfl, hp, filterEvents, reconf_calls]
    rfl
  refine filterSet_appended hcalls ?_ ?_
  · intro hnil
    have : i.fd ∈ calls'.map SetFilter.fd := by rw [e3]; exact List.mem_map_of_mem hi
    obtain ⟨a, ha, hfd⟩ := List.mem_map.1 this
    have : a ∈ calls'.filter fun a => a.fd = i.fd := List.mem_filter.2 ⟨ha, by simpa using hfd⟩
    rw [hnil] at this
    cases this
  · intro a ha
    obtain ⟨ha, hfd⟩ := List.mem_filter.1 ha
    exact hcall a ha (by simpa using hfd)

/-- C68, partial: frames that arrive after the return are received if and only if they match one of the new filters (one whose
mask does not have bit 29 set), on the interface the socket is bound to, for groups of up to 255 interfaces. Missing:
frames received before and not yet read stay, see `C68_full_statement_fails`. -/
theorem C68_after_reconfigure_partial (g : Group) (hg : g.interfaces.length ≤ 255) (l : List Filter) (ans : Nat → Int) (fuel : Nat)
    (r : Result) (calls : List SetFilter) (es0 es1 : List KEv) (hl : l.length < 2 ^ 29)
    (h : g.reconfigureFilters (some l) l.length ans fuel = some (.ok (r, calls))) (hs : r.isSuccess = true)
    (hp : progOf es1 = filterEvents calls) :
    ∀ i ∈ g.interfaces, ∀ x rx, IsExtData rx = true → (sockAfter i.fd (es0 ++ es1)).boundTo = some x →
      ((∃ f ∈ l, f.mask.getLsbD 29 = false ∧ Matches f rx) →
        (sockAfter i.fd (es0 ++ es1 ++ [.arrive x rx])).queue = (sockAfter i.fd (es0 ++ es1)).queue ++ [rx]) ∧
      (¬ (∃ f ∈ l, f.mask.getLsbD 29 = false ∧ Matches f rx) →
        (sockAfter i.fd (es0 ++ es1 ++ [.arrive x rx])).queue = (sockAfter i.fd (es0 ++ es1)).queue) := by
  intro i hi x rx hext hb
  have hset := reconf_set g hg l ans fuel r calls es0 es1 hl h hs hp i hi
  have hacc : (sockAfter i.fd (es0 ++ es1)).Accepts x rx ↔ ∃ f ∈ l, f.mask.getLsbD 29 = false ∧ Matches f rx := by
    rw [Sock.Accepts, hb, hset, extData_notErr hext, ← receives_filterCall hl i.fd hext]
    simp
  rw [sockAfter_snoc, Sock.step]
  constructor
  · intro hh; rw [if_pos (hacc.2 hh)]
  · intro hh; rw [if_neg (fun h => hh (hacc.1 h))]

/-- C68 is false of the code: a frame received earlier is still there. -/
theorem C68_full_statement_fails : ¬ C68_Statement := by
  intro h
  obtain ⟨f, hf, hm⟩ := h ⟨[Iface.mk' 0 "can0" 3]⟩ [⟨4, 0x1FFFFFFF⟩] (fun _ => 0) 2 .Success _ raceTrace
    [.prog (.call 3 (.filters ⟨3, [⟨0x80000004, 0x9FFFFFFF⟩], 8⟩))] (by decide) rfl rfl rfl
    (Iface.mk' 0 "can0" 3) (List.mem_singleton.2 rfl) 0x80000001#32
    (by
      show 0x80000001#32 ∈ (sockAfter 3 (raceTrace ++ _)).queue
      decide) (by decide)
  rw [List.mem_singleton.1 hf] at hm
  exact absurd (hm 0 (by decide) (by decide)) (by decide)

/-- Before and after changing the filter from 1 to 4. -/
example : (sockAfter 3 (raceTrace ++ [.prog (.call 3 (.filters ⟨3, [⟨0x80000004, 0x9FFFFFFF⟩], 8⟩)), .arrive 1 0x80000001#32,
    .arrive 1 0x80000004#32])).queue = [0x80000002#32, 0x80000001#32, 0x80000004#32] := by decide

end Uavcan.SocketCan
