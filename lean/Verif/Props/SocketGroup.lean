import Verif.Lemmas.SocketGroup

/-!
# C43–C46: the SocketCAN interface group
-/

namespace Uavcan.SocketCan
open Can Time Spec

/-! ## C43 -/

/-- The property as stated in `properties.jsonl`. -/
def C43_Statement (abs : Nat → Int → Outcome Int) : Prop :=
  ∀ (g : Group) (usec : Int) (ig : Bool) (ans : PollAns), 0 ≤ usec → IsInt 64 usec →
    ∃ r req, g.select abs ⟨usec⟩ ig ans = .ok (r, req) ∧ waitNs req = some (usec * 1000)

theorem select_eq (abs : Nat → Int → Outcome Int) (g : Group) (usec : Int) (ig : Bool) (ans : PollAns)
    (h0 : 0 ≤ usec) (h1 : IsInt 64 usec) :
    g.select abs ⟨usec⟩ ig ans = (Duration.sub abs defaultWidth ⟨usec⟩ ⟨usec / 1000000 * 1000000⟩).bind (fun rest =>
      .ok (if ans.res = 0 then .SuccessTimeout else if ans.res < 0 then .Failure
           else pollLoop (ans.revents.take g.interfaces.length),
        { fds := g.interfaces.map fun i => (i.fd, if ig then POLLIN ||| POLLPRI else POLLIN ||| POLLPRI ||| POLLOUT)
          tv_sec := usec / 1000000, tv_nsec := rest.usec })) := by
  have hdiv : usec.tdiv 1000000 = usec / 1000000 := by
    rw [Int.tdiv_eq_ediv_of_nonneg h0]
  have hs : InS 64 (usec / 1000000 * 1000000) := by
    simp only [IsInt, InS, intMin, intMax] at *; omega
  simp only [Group.select, Duration.toMicrosecond, hdiv, SatMath.signedResult_ok (by decide) hs, Outcome.ok_bind,
    Duration.fromMicrosecond]
  cases Duration.sub abs defaultWidth ⟨usec⟩ ⟨usec / 1000000 * 1000000⟩ with
  | ub r => rfl
  | ok rest =>
    simp only [Outcome.ok_bind, Outcome.bind, Outcome.pure_eq]
    split
    · rfl
    · split <;> rfl

/-- C43, partial: for a positive timeout the kernel is asked to wait for the whole seconds plus as many *nanoseconds* as there
are microseconds left, so exactly the whole seconds wait the requested time. Missing: everything else. -/
theorem C43_timeout_partial (g : Group) (usec : Int) (ig : Bool) (ans : PollAns) (h0 : 0 < usec) (h1 : IsInt 64 usec) :
    ∃ r req, g.select strictAbs ⟨usec⟩ ig ans = .ok (r, req) ∧
      waitNs req = some (usec / 1000000 * 1000000000 + usec % 1000000) ∧
      (waitNs req = some (usec * 1000) ↔ usec % 1000000 = 0) := by
  have hb : IsInt 64 (usec / 1000000 * 1000000) := by simp only [IsInt] at *; omega
  have hsub := (C07_duration_arithmetic_partial usec (usec / 1000000 * 1000000) h1 hb).2.2 (by omega)
  have hcl : signedClamp 64 (usec - usec / 1000000 * 1000000) = usec % 1000000 := by
    rw [show usec - usec / 1000000 * 1000000 = usec % 1000000 by omega]
    apply clamp_of_mem <;> omega
  rw [hcl] at hsub
  refine ⟨_, _, by rw [select_eq strictAbs g usec ig ans (by omega) h1, hsub]; rfl, ?_⟩
  have hw : waitNs { fds := g.interfaces.map fun i => (i.fd, if ig then POLLIN ||| POLLPRI else POLLIN ||| POLLPRI ||| POLLOUT)
                     tv_sec := usec / 1000000, tv_nsec := usec % 1000000 } =
      some (usec / 1000000 * 1000000000 + usec % 1000000) := if_pos (by simp only; omega)
  refine ⟨hw, ?_⟩
  rw [hw]
  simp only [Option.some.injEq]
  omega

/-- C43, partial: a timeout of zero (polling) has no defined behaviour - the subtraction 0 - 0 does (C07); with a wrapping
`std::abs` the kernel is given an invalid time. -/
theorem C43_zero_partial (g : Group) (ig : Bool) (ans : PollAns) :
    g.select strictAbs ⟨0⟩ ig ans = .ub .absOfMin ∧
    ∃ r req, g.select wrapAbs ⟨0⟩ ig ans = .ok (r, req) ∧ waitNs req = none := by
  constructor
  · rw [select_eq strictAbs g 0 ig ans (by decide) (by decide),
      show Duration.sub strictAbs defaultWidth ⟨0⟩ ⟨0 / 1000000 * 1000000⟩ = .ub .absOfMin by decide]
    rfl
  · refine ⟨_, _, by rw [select_eq wrapAbs g 0 ig ans (by decide) (by decide),
      show Duration.sub wrapAbs defaultWidth ⟨0⟩ ⟨0 / 1000000 * 1000000⟩ = .ok ⟨-(2 ^ 63)⟩ by decide]; rfl, ?_⟩
    rfl

/-- C43 is false of the code: the example's own timeout of 100000 µs waits 100 µs. -/
theorem C43_full_statement_fails : ¬ C43_Statement strictAbs ∧
    ∀ (g : Group) (ig : Bool) (ans : PollAns), ∃ r req,
      g.select strictAbs ⟨100000⟩ ig ans = .ok (r, req) ∧ waitNs req = some (100 * 1000) := by
  constructor
  · intro h
    obtain ⟨r, req, h1, -⟩ := h ⟨[]⟩ 0 true ⟨0, []⟩ (by decide) (by decide)
    rw [(C43_zero_partial ⟨[]⟩ true ⟨0, []⟩).1] at h1
    cases h1
  · intro g ig ans
    obtain ⟨r, req, h1, h2, -⟩ := C43_timeout_partial g 100000 ig ans (by decide) (by decide)
    exact ⟨r, req, h1, by rw [h2]; rfl⟩

example : IsInt 64 1500000 ∧ (0 : Int) < 1500000 ∧ (1500000 : Int) % 1000000 ≠ 0 := by decide

/-! ## C44 -/

/-- C44: whenever `select` returns, it classifies the answer of `ppoll` as stated and asked for the right events on the right
descriptors. -/
theorem C44_select (abs : Nat → Int → Outcome Int) (g : Group) (timeout : Duration) (ig : Bool) (ans : PollAns)
    (hr : ans.revents.length = g.interfaces.length) (r : Result) (req : PollReq)
    (h : g.select abs timeout ig ans = .ok (r, req)) :
    (r = .SuccessTimeout ↔ ans.res = 0) ∧
    (r = .Failure ↔ ans.res < 0) ∧
    (r = .SuccessPartial ↔ 0 < ans.res ∧ ∃ e ∈ ans.revents, Exceptional e) ∧
    (r = .Success ↔ 0 < ans.res ∧ ¬ ∃ e ∈ ans.revents, Exceptional e) ∧
    req.fds.map Prod.fst = g.interfaces.map Iface.fd ∧
    ∀ p ∈ req.fds, ∀ k, k < 16 → (p.2.getLsbD k = true ↔ k = 0 ∨ k = 1 ∨ (k = 2 ∧ ig = false)) := by
  simp only [Group.select] at h
  cases hs : signedResult 64 (timeout.toMicrosecond.tdiv 1000000 * 1000000) with
  | ub u => rw [hs] at h; simp at h
  | ok whole =>
  rw [hs] at h
  simp only [Outcome.ok_bind] at h
  cases hd : timeout.sub abs defaultWidth (Duration.fromMicrosecond whole) with
  | ub u => rw [hd] at h; simp at h
  | ok rest =>
  rw [hd] at h
  simp only [Outcome.ok_bind, Outcome.pure_eq] at h
  have htake : ans.revents.take g.interfaces.length = ans.revents := List.take_of_length_le (by omega)
  rw [htake] at h
  have hfds : req.fds = g.interfaces.map fun i =>
      (i.fd, if ig then POLLIN ||| POLLPRI else POLLIN ||| POLLPRI ||| POLLOUT) := by
    split at h
    · injection h with h; injection h with _ h; rw [← h]
    · split at h <;> (injection h with h; injection h with _ h; rw [← h])
  have hres : r = if ans.res = 0 then .SuccessTimeout else if ans.res < 0 then .Failure else pollLoop ans.revents := by
    split at h
    · rename_i hc; rw [if_pos hc]; injection h with h; injection h with h; exact h.symm
    · rename_i hc; rw [if_neg hc]
      split at h <;> rename_i hc' <;> first | rw [if_pos hc'] | rw [if_neg hc']
      all_goals (injection h with h; injection h with h; exact h.symm)
  have hp := pollLoop_eq ans.revents
  have hp2 : pollLoop ans.revents = .Success ∨ pollLoop ans.revents = .SuccessPartial := by
    rw [hp.1, hp.2]; exact (Classical.em _).symm
  rw [hres]
  refine ⟨?_, ?_, ?_, ?_, ?_, ?_⟩
  · split
    · simp [*]
    · split <;> simp [*]
      rcases hp2 with h | h <;> simp [h]
  · split
    · simp; omega
    · split <;> simp [*]
      rcases hp2 with h | h <;> simp [h]
  · split
    · simp; omega
    · split
      · simp; omega
      · rw [hp.1]; constructor
        · intro h; exact ⟨by omega, h⟩
        · intro h; exact h.2
  · split
    · simp; omega
    · split
      · simp; omega
      · rw [hp.2]; constructor
        · intro h; exact ⟨by omega, h⟩
        · intro h; exact h.2
  · rw [hfds, List.map_map]; rfl
  · intro p hp k hk
    rw [hfds, List.mem_map] at hp
    obtain ⟨i, -, rfl⟩ := hp
    have t1 : ∀ k : Fin 16, (POLLIN ||| POLLPRI).getLsbD k = true ↔ k.val = 0 ∨ k.val = 1 := by decide
    have t2 : ∀ k : Fin 16, (POLLIN ||| POLLPRI ||| POLLOUT).getLsbD k = true ↔ k.val = 0 ∨ k.val = 1 ∨ k.val = 2 := by
      decide
    cases ig
    · simpa using t2 ⟨k, hk⟩
    · simpa using t1 ⟨k, hk⟩

/-- C44, `select` does return for every positive timeout. -/
theorem C44_returns (g : Group) (usec : Int) (ig : Bool) (ans : PollAns) (h0 : 0 < usec) (h1 : IsInt 64 usec) :
    ∃ r req, g.select strictAbs ⟨usec⟩ ig ans = .ok (r, req) := by
  obtain ⟨r, req, h, -⟩ := C43_timeout_partial g usec ig ans h0 h1
  exact ⟨r, req, h⟩

/-- An error on the second of two interfaces. -/
example : (⟨[Iface.mk' 0 "a" 3, Iface.mk' 1 "b" 4]⟩ : Group).select strictAbs ⟨1000000⟩ true
    ⟨1, [0x001#16, 0x008#16]⟩ = .ok (.SuccessPartial, ⟨[(3, 0x003#16), (4, 0x003#16)], 1, 0⟩) := by decide

/-! ## C45 -/

/-- The property as stated in `properties.jsonl`, for a readable filter array. -/
def C45_Statement : Prop :=
  ∀ (g : Group) (fc : Option (List Filter)) (num : Nat) (ans : Nat → Int),
    (num = 0 ∨ (num < 2 ^ 32 ∧ ∃ l, fc = some l ∧ num ≤ l.length)) →
    ∃ fuel r calls, g.reconfigureFilters fc num ans fuel = some (.ok (r, calls)) ∧
      (r.isSuccess = true → calls.map SetFilter.fd = g.interfaces.map Iface.fd ∧
        (∀ a ∈ calls, ∀ b ∈ calls, a.filters = b.filters ∧ a.optlen = b.optlen) ∧
        ∀ j, j < g.interfaces.length → ans j = 0) ∧
      (r.isSuccess = false → r = .UnknownInternalError ∧ ∃ k, k < g.interfaces.length ∧ ans k ≠ 0 ∧
        (∀ j, j < k → ans j = 0) ∧ calls.length = k + 1)

/-- C45, partial: it holds for at most 255 interfaces; every call installs exactly what `configureFilters` (C46) installs for
the filters given. Missing: larger groups, see `C45_full_statement_fails`. -/
theorem C45_reconfigure_partial (g : Group) (hg : g.interfaces.length ≤ 255) (fc : Option (List Filter)) (num : Nat)
    (ans : Nat → Int) (h : num = 0 ∨ (num < 2 ^ 32 ∧ ∃ l, fc = some l ∧ num ≤ l.length)) :
    ∃ fuel r calls, g.reconfigureFilters fc num ans fuel = some (.ok (r, calls)) ∧
      (r.isSuccess = true ↔ ∀ j, j < g.interfaces.length → ans j = 0) ∧
      (r.isSuccess = true → r = .Success ∧ calls.map SetFilter.fd = g.interfaces.map Iface.fd ∧
        (∀ a ∈ calls, ∀ b ∈ calls, a.filters = b.filters ∧ a.optlen = b.optlen)) ∧
      (∀ a ∈ calls, configureFilters a.fd fc num 0 = .ok (.Success, some a)) ∧
      (r.isSuccess = false → r = .UnknownInternalError ∧ ∃ k, k < g.interfaces.length ∧ ans k ≠ 0 ∧
        (∀ j, j < k → ans j = 0) ∧ calls.map SetFilter.fd = (g.interfaces.take (k + 1)).map Iface.fd) := by
  obtain ⟨r, cs, e, hcase⟩ := reconfLoop_ok h g.interfaces hg ans (g.interfaces.length + 1) 0 (by omega) (by omega) []
  refine ⟨g.interfaces.length + 1, r, cs, by simpa [Group.reconfigureFilters] using e, ?_⟩
  have hcalls : ∀ l : List Iface, ∀ a ∈ l.map (fun s => filterCall fc num s.fd),
      configureFilters a.fd fc num 0 = .ok (.Success, some a) := by
    intro l a ha
    obtain ⟨s, -, rfl⟩ := List.mem_map.1 ha
    rw [configureFilters_ok h]
    rfl
  rcases hcase with ⟨rfl, h2, rfl⟩ | ⟨rfl, k, -, h2, h3, h4, rfl⟩
  · refine ⟨?_, fun _ => ⟨rfl, by simp [filterCall], ?_⟩, hcalls _, fun h => by cases h⟩
    · constructor
      · intro _ j hj; exact h2 j (by omega) hj
      · intro _; rfl
    · intro a ha b hb
      simp only [List.mem_map] at ha hb
      obtain ⟨_, _, rfl⟩ := ha
      obtain ⟨_, _, rfl⟩ := hb
      exact ⟨rfl, rfl⟩
  · refine ⟨?_, fun h => (by cases h), hcalls _, fun _ => ⟨rfl, k, h2, h3,
      fun j hj => h4 j (by omega) hj, by simp only [List.drop_zero, List.map_map]; rfl⟩⟩
    constructor
    · intro h; cases h
    · intro h; exact absurd (h k h2) h3

/-- C45 is false of the code: with 256 interfaces that all accept the filters, `reconfigureFilters` never returns, since
its 8-bit index wraps around. -/
theorem C45_full_statement_fails : ¬ C45_Statement ∧
    ∀ (g : Group) (num : Nat) (fc : Option (List Filter)), 256 ≤ g.interfaces.length →
      (num = 0 ∨ (num < 2 ^ 32 ∧ ∃ l, fc = some l ∧ num ≤ l.length)) →
      ∀ fuel, g.reconfigureFilters fc num (fun _ => 0) fuel = none := by
  have hall : ∀ (g : Group) (num : Nat) (fc : Option (List Filter)), 256 ≤ g.interfaces.length →
      (num = 0 ∨ (num < 2 ^ 32 ∧ ∃ l, fc = some l ∧ num ≤ l.length)) →
      ∀ fuel, g.reconfigureFilters fc num (fun _ => 0) fuel = none := fun g num fc hg h fuel =>
    reconfLoop_forever h g.interfaces hg _ (fun _ => rfl) fuel 0 0 (by decide) []
  refine ⟨?_, hall⟩
  intro h
  obtain ⟨fuel, r, calls, h1, -⟩ := h ⟨List.replicate 256 (Iface.mk' 0 "vcan0" 3)⟩ none 0 (fun _ => 0) (.inl rfl)
  rw [hall _ 0 none (by rw [List.length_replicate]; exact Nat.le_refl _) (.inl rfl)] at h1
  cases h1

/-- Two interfaces, the second of which refuses. -/
example : ((⟨[Iface.mk' 0 "a" 3, Iface.mk' 1 "b" 4]⟩ : Group).reconfigureFilters (some [⟨1#32, 2#32⟩]) 1
    (fun k => if k = 1 then -1 else 0) 5) = some (.ok (.UnknownInternalError,
      [⟨3, [⟨0x80000001#32, 0x80000002#32⟩], 8⟩, ⟨4, [⟨0x80000001#32, 0x80000002#32⟩], 8⟩])) := by decide

/-! ## C46 -/

/-- The property as stated in `properties.jsonl`. -/
def C46_Statement : Prop :=
  ∀ (fd : Int) (fc : Option (List Filter)) (num : Nat) (ans : Int), num < 2 ^ 64 →
    (fc = none → num ≠ 0 → ∃ call, configureFilters fd fc num ans = .ok (.BadArgument, call)) ∧
    (∀ l, fc = some l → l.length = num →
      ∃ r call, configureFilters fd fc num ans = .ok (r, some call) ∧ call.fd = fd ∧
        (ValidSetFilter call ans → r.isSuccess = true → ∀ rx,
          (IsExtData rx = true → (Receives call rx ↔ ∃ f ∈ l, Matches f rx)) ∧
          (rx.getLsbD 31 = false → rx.getLsbD 29 = false → ¬ Receives call rx)))

/-- C46, partial: for fewer than 2^29 filters, an extended data frame is received exactly when a filter matches it *whose mask
does not have bit 29 set*; standard frames are never received. Missing: filters with that bit, which Linux takes for
error message filters; 2^29 or more filters; and a null pointer with more than 512 filters. -/
theorem C46_filters_partial (fd : Int) (l : List Filter) (ans : Int) (hl : l.length < 2 ^ 29) :
    ∃ r call, configureFilters fd (some l) l.length ans = .ok (r, some call) ∧ call.fd = fd ∧
      (r.isSuccess = true ↔ ans = 0) ∧
      ∀ rx,
        (IsExtData rx = true → (Receives call rx ↔ ∃ f ∈ l, f.mask.getLsbD 29 = false ∧ Matches f rx)) ∧
        (rx.getLsbD 31 = false → rx.getLsbD 29 = false → ¬ Receives call rx) := by
  have hgood : GoodFilters (some l) l.length := .inr ⟨by omega, l, rfl, Nat.le_refl _⟩
  refine ⟨_, _, configureFilters_ok hgood fd ans, rfl, ?_, ?_⟩
  · by_cases h : ans = 0 <;> simp [h, Result.isSuccess, Result.not, Result.code]
  · intro rx
    have hmod : (8 * l.length) % 2 ^ 32 = 8 * l.length := Nat.mod_eq_of_lt (by omega)
    have hinst : installed (filterCall (some l) l.length fd) = l.map toCanFilter := by
      simp only [installed, filterCall, hmod, Option.getD_some, List.take_length]
      rw [show 8 * l.length / 8 = l.length by omega]
      exact List.take_of_length_le (by simp)
    have hrec : Receives (filterCall (some l) l.length fd) rx ↔ ∃ f ∈ l, Passes (toCanFilter f) rx := by
      simp only [Receives, hinst, List.mem_map]
      constructor
      · rintro ⟨_, ⟨f, hf, rfl⟩, hp⟩; exact ⟨f, hf, hp⟩
      · rintro ⟨f, hf, hp⟩; exact ⟨_, ⟨f, hf, rfl⟩, hp⟩
    rw [hrec]
    constructor
    · intro hext
      simp only [IsExtData, Bool.and_eq_true, Bool.not_eq_true'] at hext
      obtain ⟨⟨h31, h30⟩, h29⟩ := hext
      constructor
      · rintro ⟨f, hf, hp⟩
        cases hm : f.mask.getLsbD 29 with
        | false => exact ⟨f, hf, hm, (((passes_toCanFilter f rx).1 hm).1 hp).2.2.2⟩
        | true =>
          have := (passes_toCanFilter f rx).2 hm hp
          simp only [IsErr, h29] at this
          cases this
      · rintro ⟨f, hf, hm, hmt⟩
        exact ⟨f, hf, ((passes_toCanFilter f rx).1 hm).2 ⟨h31, h29, fun _ => h30, hmt⟩⟩
    · rintro h31 h29 ⟨f, hf, hp⟩
      cases hm : f.mask.getLsbD 29 with
      | false => have := (((passes_toCanFilter f rx).1 hm).1 hp).1; rw [h31] at this; cases this
      | true => have := (passes_toCanFilter f rx).2 hm hp; simp only [IsErr, h29] at this; cases this

/-- C46, partial: with an empty filter list nothing is received. -/
theorem C46_empty_partial (fd : Int) (fc : Option (List Filter)) (ans : Int) :
    ∃ r call, configureFilters fd fc 0 ans = .ok (r, some call) ∧ (r.isSuccess = true ↔ ans = 0) ∧
      ∀ rx, ¬ Receives call rx := by
  refine ⟨_, _, configureFilters_ok (.inl rfl) fd ans, ?_, ?_⟩
  · by_cases h : ans = 0 <;> simp [h, Result.isSuccess, Result.not, Result.code]
  · rintro rx ⟨f, hf, -⟩
    simp [installed, filterCall] at hf

/-- C46, partial: a null filter array of non-zero length is rejected, up to a length of 512, and dereferenced above. -/
theorem C46_null_partial (fd : Int) (num : Nat) (ans : Int) (h0 : num ≠ 0) :
    (num ≤ 512 → configureFilters fd none num ans = .ok (.BadArgument, none)) ∧
    (512 < num → configureFilters fd none num ans = .ub .nullDeref) := by
  constructor
  · intro h; simp [configureFilters, h0, CAN_RAW_FILTER_MAX, h]
  · intro h
    have : ¬ num ≤ 512 := by omega
    simp [configureFilters, h0, CAN_RAW_FILTER_MAX, this, collectFilters]

/-- C46, partial: remote frames pass as well, unless the filter's mask has bit 30 set. -/
theorem C46_remote_partial (f : Filter) (rx : BitVec 32) (hm : f.mask.getLsbD 29 = false)
    (h31 : rx.getLsbD 31 = true) (h30 : rx.getLsbD 30 = true) (h29 : rx.getLsbD 29 = false) (hmt : Matches f rx) :
    Passes (toCanFilter f) rx ↔ f.mask.getLsbD 30 = false := by
  rw [(passes_toCanFilter f rx).1 hm]
  constructor
  · rintro ⟨-, -, h, -⟩
    cases hb : f.mask.getLsbD 30 with
    | false => rfl
    | true => rw [h hb] at h30; cases h30
  · intro hb
    exact ⟨h31, h29, fun h => by (rw [hb] at h; cases h), hmt⟩

/-- C46 is false of the code: a filter with the mask 0xFFFFFFFF accepts nothing; a null array of 513 filters is
dereferenced; of 2^29 + 1 filters only the first takes effect. -/
theorem C46_full_statement_fails : ¬ C46_Statement ∧
    (∃ f : Filter, f = ⟨0x1234#32, 0xFFFFFFFF#32⟩ ∧ IsExtData 0x80001234#32 = true ∧ Matches f 0x80001234#32 ∧
      ¬ Passes (toCanFilter f) 0x80001234#32) ∧
    configureFilters 3 none 513 0 = .ub .nullDeref ∧
    (∀ (fd : Int) (l : List Filter) (ans : Int), l.length = 2 ^ 29 + 1 →
      ∃ call, configureFilters fd (some l) l.length ans =
          .ok (if ans ≠ 0 then .UnknownInternalError else .Success, some call) ∧
        ValidSetFilter call ans ∧ (installed call).length = 1) := by
  have hnull : configureFilters 3 none 513 0 = .ub .nullDeref := (C46_null_partial 3 513 0 (by decide)).2 (by decide)
  refine ⟨?_, ?_, hnull, ?_⟩
  · intro h
    obtain ⟨call, h1⟩ := (h 3 none 513 0 (by decide)).1 rfl (by decide)
    rw [hnull] at h1
    cases h1
  · refine ⟨_, rfl, by decide, ?_, ?_⟩
    · intro k hk _
      have : ∀ k : Fin 29, (0x80001234#32).getLsbD k = (0x1234#32).getLsbD k := by decide
      exact this ⟨k, hk⟩
    · intro hp
      have := (passes_toCanFilter _ _).2 (by decide) hp
      revert this
      decide
  · intro fd l ans hl
    refine ⟨_, configureFilters_ok (.inr ⟨by omega, l, rfl, Nat.le_refl _⟩) fd ans, ?_, ?_⟩
    · intro _
      simp only [filterCall, hl]
      decide
    · simp only [installed, filterCall, hl, List.length_take, Option.getD_some, List.length_map]
      decide

/-- A filter that lets some extended frames through and others not. -/
example : Passes (toCanFilter ⟨0x1200#32, 0x1FFFFF00#32⟩) 0x80001234#32 ∧
    ¬ Passes (toCanFilter ⟨0x1200#32, 0x1FFFFF00#32⟩) 0x80001334#32 := by
  constructor
  · refine ((passes_toCanFilter _ _).1 (by decide)).2 ⟨by decide, by decide, by decide, ?_⟩
    have : ∀ k : Fin 29, (0x1FFFFF00#32).getLsbD k = true → (0x80001234#32).getLsbD k = (0x1200#32).getLsbD k := by decide
    exact fun k hk => this ⟨k, hk⟩
  · intro hp
    have := (((passes_toCanFilter _ _).1 (by decide)).1 hp).2.2.2 8 (by decide) (by decide)
    revert this
    decide

end Uavcan.SocketCan
