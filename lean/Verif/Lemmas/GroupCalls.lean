import Verif.Props.SocketCan
import Verif.Props.SocketGroup
import Verif.Spec.GroupCalls

/-!
# Lemmas for `Props/GroupCalls`
-/

namespace Uavcan.SocketCan
open Can Time Spec

theorem select_defined (g : Group) (usec : Int) (ig : Bool) (ans : PollAns) (h1 : IsInt 64 usec) :
    (usec ≠ 0 → ∃ r req, g.select strictAbs ⟨usec⟩ ig ans = .ok (r, req)) ∧
    (usec = 0 → g.select strictAbs ⟨usec⟩ ig ans = .ub .absOfMin) := by
  constructor
  · intro h0
    have ht : IsInt 64 (usec.tdiv 1000000 * 1000000) := by
      simp only [IsInt] at *
      rcases Int.le_total 0 usec with h | h
      · rw [Int.tdiv_eq_ediv_of_nonneg h]; omega
      · have : usec.tdiv 1000000 = -((-usec) / 1000000) := by
          rw [← Int.tdiv_eq_ediv_of_nonneg (by omega), Int.neg_tdiv, Int.neg_neg]
        rw [this]; omega
    have hs : InS 64 (usec.tdiv 1000000 * 1000000) := by
      simp only [IsInt, InS, intMin, intMax] at *; omega
    have hsub := (C07_duration_arithmetic_partial usec _ h1 ht).2.2 (.inl h0)
    simp only [Group.select, Duration.toMicrosecond, SatMath.signedResult_ok (by decide) hs, Outcome.ok_bind, Duration.fromMicrosecond, hsub,
      Outcome.pure_eq]
    split
    · exact ⟨_, _, rfl⟩
    · split <;> exact ⟨_, _, rfl⟩
  · rintro rfl
    exact (C43_zero_partial g ig ans).1

theorem configureFilters_cases (fd : Int) (fc : Option (List Filter)) (num : Nat) (ans : Int) :
    ((num = 0 ∨ (fc = none ∧ num ≤ 512) ∨ (num < 2 ^ 32 ∧ ∃ l, fc = some l ∧ num ≤ l.length)) →
      ∃ p, configureFilters fd fc num ans = .ok p) ∧
    (¬ (num = 0 ∨ (fc = none ∧ num ≤ 512) ∨ (num < 2 ^ 32 ∧ ∃ l, fc = some l ∧ num ≤ l.length)) →
      ∃ u, configureFilters fd fc num ans = .ub u) := by
  constructor
  · rintro (rfl | ⟨rfl, h⟩ | h)
    · exact ⟨_, configureFilters_ok (.inl rfl) fd ans⟩
    · by_cases h0 : num = 0
      · exact ⟨_, configureFilters_ok (.inl h0) fd ans⟩
      · exact ⟨_, (C46_null_partial fd num ans h0).1 h⟩
    · exact ⟨_, configureFilters_ok (.inr h) fd ans⟩
  · intro h
    have h0 : num ≠ 0 := fun e => h (.inl e)
    cases fc with
    | none => exact ⟨_, (C46_null_partial fd num ans h0).2 (by have : ¬ num ≤ 512 := fun e => h (.inr (.inl ⟨rfl, e⟩)); omega)⟩
    | some l =>
      have h2 : ¬ (num < 2 ^ 32 ∧ num ≤ l.length) := fun e => h (.inr (.inr ⟨e.1, l, rfl, e.2⟩))
      unfold configureFilters
      rw [if_neg (by simp), if_neg h0]
      unfold collectFilters
      by_cases hlen : l.length < min num (2 ^ 32)
      · exact ⟨.outOfBounds, by simp only [hlen, if_true]; rfl⟩
      · have : 2 ^ 32 ≤ num := by omega
        exact ⟨.nonTermination, by simp only [hlen, if_false, this, if_true]; rfl⟩

theorem reconfLoop_null (ifs : List Iface) (num : Nat) (h0 : num ≠ 0) (h : num ≤ 512) (ans : Nat → Int) :
    ∃ p, reconfLoop ifs none num ans 1 0 0 [] = some (.ok p) := by
  unfold reconfLoop
  cases hi : ifs[0]? with
  | none => exact ⟨_, rfl⟩
  | some s =>
    simp only [(C46_null_partial s.fd num (ans 0) h0).1 h]
    rw [if_pos (by decide)]
    exact ⟨_, rfl⟩

theorem write_fd (s : Iface) (frames : Vector FrameT FramesLen) (n : Nat) (ans : SysAns) (r : WriteOut) (h : s.write frames n ans = .ok r) :
    r.iface.fd = s.fd := by
  unfold Iface.write at h
  split at h
  · cases h; rfl
  · cases hb : writeLoop frames n 0 s.bufs with
    | ub u => rw [hb] at h; cases h
    | ok bufs =>
      rw [hb] at h
      simp only [Outcome.ok_bind] at h
      split at h
      · split at h <;> (cases h; rfl)
      · split at h <;> (cases h; rfl)

theorem read_fd (s : Iface) (out : Vector FrameT FramesLen) (ans : RecvAns) (r : ReadOut) (h : s.read out ans = .ok r) : r.iface.fd = s.fd := by
  unfold Iface.read at h
  split at h
  · cases h; rfl
  · simp only [] at h
    cases hb : readLoop (storeMsgs (ans.msgs.take ans.res.toNat) 0 s.bufs) (ans.msgs.take ans.res.toNat) 0
        { stats := s.stats, out_frames := out, out_frames_read := 0 } with
    | ub u => rw [hb] at h; cases h
    | ok st => rw [hb] at h; cases h; rfl

theorem map_fd_set (l : List Iface) (i : Nat) (s s' : Iface) (hs : l[i]? = some s) (h : s'.fd = s.fd) :
    (l.set i s').map Iface.fd = l.map Iface.fd := by
  induction l generalizing i with
  | nil => rfl
  | cons x l ih =>
    cases i with
    | zero => cases hs; simp [h]
    | succ i => simp only [List.set_cons_succ, List.map_cons]; rw [ih i hs]

/-- What is to be shown of a call. -/
structure Exact (g : Group) (c : GroupCall) (ok : Prop) : Prop where
  returns : ok → (∃ r g', g.Call strictAbs c (.ok (r, g'))) ∧ ∀ u, ¬ g.Call strictAbs c (.ub u)
  undefined : ¬ ok → (∃ u, g.Call strictAbs c (.ub u)) ∧ ∀ r g', ¬ g.Call strictAbs c (.ok (r, g'))
  same : ∀ r g', g.Call strictAbs c (.ok (r, g')) → g'.interfaces.map Iface.fd = g.interfaces.map Iface.fd

/-- From the outcomes of a call. -/
theorem Exact.of {g : Group} {c : GroupCall} {ok : Prop} (hex : ∃ o, g.Call strictAbs c o)
    (h1 : ok → ∀ o, g.Call strictAbs c o → ∃ r g', o = .ok (r, g')) (h2 : ¬ ok → ∀ o, g.Call strictAbs c o → ∃ u, o = .ub u)
    (h3 : ∀ r g', g.Call strictAbs c (.ok (r, g')) → g'.interfaces.map Iface.fd = g.interfaces.map Iface.fd) : Exact g c ok := by
  obtain ⟨o, ho⟩ := hex
  refine ⟨fun h => ⟨?_, fun u hu => ?_⟩, fun h => ⟨?_, fun r g' hr => ?_⟩, h3⟩
  · obtain ⟨r, g', e⟩ := h1 h o ho
    exact ⟨r, g', e ▸ ho⟩
  · obtain ⟨_, _, e⟩ := h1 h _ hu
    cases e
  · obtain ⟨u, e⟩ := h2 h o ho
    exact ⟨u, e ▸ ho⟩
  · obtain ⟨_, e⟩ := h2 h _ hr
    cases e

theorem bind_ok {α β : Type} {x : Outcome α} {f : α → Outcome β} {b : β} (h : x >>= f = .ok b) : ∃ a, x = .ok a ∧ f a = .ok b := by
  cases x with
  | ub u => cases h
  | ok a => exact ⟨a, rfl, h⟩

theorem exact_write (g : Group) (index n : Nat) (frames : Vector FrameT FramesLen) (ans : SysAns) :
    Exact g (.write index frames n ans) (index < g.interfaces.length → n ≤ 4) := by
  refine .of ⟨_, .write index frames n ans 0⟩ ?_ ?_ ?_
  · rintro h o ⟨⟩
    rename_i out
    rcases Nat.lt_or_ge index g.interfaces.length with hi | hi
    · rcases Nat.eq_zero_or_pos n with h0 | h0
      · rw [(C36_rejected_partial g index n out frames ans).2.1 hi h0]; exact ⟨_, _, rfl⟩
      · obtain ⟨bufs', -, -, hw⟩ := write_ok g.interfaces[index] frames n ans h0 (h hi)
        simp only [Group.write, List.getElem?_eq_getElem hi, hw, Outcome.ok_bind, Outcome.pure_eq]
        exact ⟨_, _, rfl⟩
    · rw [(C36_rejected_partial g index n out frames ans).1 hi]; exact ⟨_, _, rfl⟩
  · rintro h o ⟨⟩
    rename_i out
    have hi : index < g.interfaces.length := by
      rcases Nat.lt_or_ge index g.interfaces.length with hi | hi
      · exact hi
      · exact absurd (fun h => absurd h (by omega)) h
    have hn : 4 < n := by
      rcases Nat.lt_or_ge 4 n with hn | hn
      · exact hn
      · exact absurd (fun _ => hn) h
    rw [(C36_rejected_partial g index n out frames ans).2.2 hi hn]
    exact ⟨_, rfl⟩
  · intro r g' h
    generalize ho : Outcome.ok (r, g') = o at h
    cases h with
    | write _ _ _ _ out =>
    obtain ⟨w, hw, e⟩ := bind_ok ho.symm
    cases e
    unfold Group.write at hw
    cases hi : g.interfaces[index]? with
    | none => rw [hi] at hw; cases hw; rfl
    | some s =>
      rw [hi] at hw
      obtain ⟨v, hv, e⟩ := bind_ok hw
      cases e
      exact map_fd_set _ _ s _ hi (write_fd s frames n ans v hv)

theorem exact_read (g : Group) (index : Nat) (buf : Vector FrameT FramesLen) (ans : RecvAns) (hv : ValidRecv ans) :
    Exact g (.read index buf ans) True := by
  refine .of ⟨_, .read index buf ans 0⟩ ?_ (fun h => absurd trivial h) ?_
  · rintro - o ⟨⟩
    unfold Group.read
    cases hi : g.interfaces[index]? with
    | none => exact ⟨_, _, rfl⟩
    | some s =>
      obtain ⟨r, hr, -⟩ := read_ok s buf ans hv
      simp only [hr, Outcome.ok_bind, Outcome.pure_eq]
      exact ⟨_, _, rfl⟩
  · intro r g' h
    generalize ho : Outcome.ok (r, g') = o at h
    cases h with
    | read _ _ _ out =>
    obtain ⟨w, hw, e⟩ := bind_ok ho.symm
    cases e
    unfold Group.read at hw
    cases hi : g.interfaces[index]? with
    | none => rw [hi] at hw; cases hw; rfl
    | some s =>
      rw [hi] at hw
      obtain ⟨v, hv, e⟩ := bind_ok hw
      cases e
      exact map_fd_set _ _ s _ hi (read_fd s buf ans v hv)

/-- More fuel does not change the outcome. -/
theorem reconfLoop_mono_fuel (ifs : List Iface) (fc : Option (List Filter)) (num : Nat) (ans : Nat → Int) (f1 : Nat) :
    ∀ (f2 i k : Nat) (calls : List SetFilter) (o1 o2 : Outcome (Result × List SetFilter)), reconfLoop ifs fc num ans f1 i k calls = some o1 →
      reconfLoop ifs fc num ans f2 i k calls = some o2 → o1 = o2 := by
  induction f1 with
  | zero => intro f2 i k calls o1 o2 h; cases h
  | succ f1 ih =>
    intro f2 i k calls o1 o2 h1 h2
    cases f2 with
    | zero => cases h2
    | succ f2 =>
      unfold reconfLoop at h1 h2
      cases hi : ifs[i]? with
      | none => simp only [hi, Option.some.injEq] at h1 h2; rw [← h1, ← h2]
      | some s =>
        simp only [hi] at h1 h2
        cases hc : configureFilters s.fd fc num (ans k) with
        | ub u => simp only [hc, Option.some.injEq] at h1 h2; rw [← h1, ← h2]
        | ok p =>
          obtain ⟨r, call⟩ := p
          simp only [hc] at h1 h2
          by_cases hn : r.not = true
          · rw [if_pos hn] at h1 h2; cases h1; cases h2; rfl
          · rw [if_neg hn] at h1 h2; exact ih _ _ _ _ _ _ h1 h2

theorem exact_filters (g : Group) (hg : g.interfaces.length ≤ 255) (fc : Option (List Filter)) (num : Nat) (ans : Nat → Int) :
    Exact g (.reconfigureFilters fc num ans)
      (g.interfaces.length = 0 ∨ num = 0 ∨ (fc = none ∧ num ≤ 512) ∨ (num < 2 ^ 32 ∧ ∃ l, fc = some l ∧ num ≤ l.length)) := by
  have hcall : ∀ (fuel : Nat) (o : Outcome (Result × List SetFilter)), g.reconfigureFilters fc num ans fuel = some o →
      ∀ p, g.Call strictAbs (.reconfigureFilters fc num ans) p → p = (do let r ← o; return (r.1, g)) := by
    intro fuel o ho p hp
    cases hp with
    | reconfigureFilters _ _ _ fuel' o' ho' =>
      rw [reconfLoop_mono_fuel _ _ _ _ _ _ _ _ _ _ _ ho' ho]
  have hmain : ∃ fuel o, g.reconfigureFilters fc num ans fuel = some o ∧
      ((g.interfaces.length = 0 ∨ num = 0 ∨ (fc = none ∧ num ≤ 512) ∨ (num < 2 ^ 32 ∧ ∃ l, fc = some l ∧ num ≤ l.length)) → ∃ p, o = .ok p) ∧
      (¬ (g.interfaces.length = 0 ∨ num = 0 ∨ (fc = none ∧ num ≤ 512) ∨ (num < 2 ^ 32 ∧ ∃ l, fc = some l ∧ num ≤ l.length)) →
        ∃ u, o = .ub u) := by
    by_cases hc : g.interfaces.length = 0
    · have : g.interfaces = [] := List.eq_nil_of_length_eq_zero hc
      exact ⟨1, .ok (.Success, []), by simp [Group.reconfigureFilters, reconfLoop, this], fun _ => ⟨_, rfl⟩, fun h => absurd (.inl hc) h⟩
    · by_cases hgood : num = 0 ∨ (num < 2 ^ 32 ∧ ∃ l, fc = some l ∧ num ≤ l.length)
      · obtain ⟨fuel, r, calls, h, -⟩ := C45_reconfigure_partial g hg fc num ans hgood
        refine ⟨fuel, _, h, fun _ => ⟨_, rfl⟩, fun h => absurd ?_ h⟩
        rcases hgood with h | h
        · exact .inr (.inl h)
        · exact .inr (.inr (.inr h))
      · by_cases hnull : fc = none ∧ num ≤ 512
        · obtain ⟨rfl, h5⟩ := hnull
          obtain ⟨p, h⟩ := reconfLoop_null g.interfaces num (fun e => hgood (.inl e)) h5 ans
          exact ⟨1, _, h, fun _ => ⟨_, rfl⟩, fun h => absurd (.inr (.inr (.inl ⟨rfl, h5⟩))) h⟩
        · have hbad : ¬ (num = 0 ∨ (fc = none ∧ num ≤ 512) ∨ (num < 2 ^ 32 ∧ ∃ l, fc = some l ∧ num ≤ l.length)) := by
            rintro (h | h | h)
            · exact hgood (.inl h)
            · exact hnull h
            · exact hgood (.inr h)
          have hget : g.interfaces[0]? = some g.interfaces[0] := List.getElem?_eq_getElem (by omega)
          obtain ⟨u, hu⟩ := (configureFilters_cases g.interfaces[0].fd fc num (ans 0)).2 hbad
          refine ⟨1, .ub u, by simp only [Group.reconfigureFilters, reconfLoop, hget, hu], fun h => ?_, fun _ => ⟨_, rfl⟩⟩
          rcases h with h | h
          · exact absurd h hc
          · exact absurd h hbad
  obtain ⟨fuel, o, ho, h1, h2⟩ := hmain
  refine .of ⟨_, .reconfigureFilters fc num ans fuel o ho⟩ (fun h p hp => ?_) (fun h p hp => ?_) (fun r g' h => ?_)
  · obtain ⟨q, rfl⟩ := h1 h
    rw [hcall fuel _ ho p hp]
    exact ⟨_, _, rfl⟩
  · obtain ⟨u, rfl⟩ := h2 h
    rw [hcall fuel _ ho p hp]
    exact ⟨_, rfl⟩
  · have := hcall fuel o ho _ h
    obtain ⟨q, -, e⟩ := bind_ok this.symm
    cases e
    rfl

theorem exact_select (g : Group) (t : Duration) (ig : Bool) (ans : PollAns) (ht : IsInt 64 t.usec) : Exact g (.select t ig ans) (t.usec ≠ 0) := by
  refine .of ⟨_, .select t ig ans⟩ ?_ ?_ ?_
  · rintro h o ⟨⟩
    obtain ⟨r, req, e⟩ := (select_defined g t.usec ig ans ht).1 h
    rw [show g.select strictAbs t ig ans = .ok (r, req) from e]
    exact ⟨_, _, rfl⟩
  · rintro h o ⟨⟩
    rw [show g.select strictAbs t ig ans = .ub .absOfMin from (select_defined g t.usec ig ans ht).2 (Decidable.not_not.1 h)]
    exact ⟨_, rfl⟩
  · intro r g' h
    generalize ho : Outcome.ok (r, g') = o at h
    cases h with
    | select =>
    obtain ⟨w, hw, e⟩ := bind_ok ho.symm
    cases e
    rfl

theorem exact (g : Group) (hg : g.interfaces.length ≤ 255) (c : GroupCall) (hp : Possible c) : Exact g c (DefinedFor g.interfaces.length c) := by
  cases c with
  | write index frames n ans => exact exact_write g index n frames ans
  | read index buf ans => exact exact_read g index buf ans hp
  | reconfigureFilters fc num ans => exact exact_filters g hg fc num ans
  | select t ig ans => exact exact_select g t ig ans hp

end Uavcan.SocketCan
