import Verif.Lemmas.GroupCalls

/-!
# C127: calls of an interface group
-/

namespace Uavcan.SocketCan
open Can Time Spec

/-! ## C127 -/

/-- C127: calls as the comments allow them, in any order and with any answers of the kernel, are all defined and return. -/
def C127_Statement : Prop :=
  ∀ (g : Group) (calls : List GroupCall), g.interfaces.length ≤ 255 → (∀ c ∈ calls, Allowed c ∧ Possible c) →
    ∃ rs g', g.Session strictAbs calls rs g'

/-- C127, partial, exactly: with at most 255 interfaces a call returns if it is one of those defined, and is undefined if not; the descriptors and the number of
interfaces stay the same. -/
theorem C127_call_partial (g : Group) (hg : g.interfaces.length ≤ 255) (c : GroupCall) (hp : Possible c) :
    (DefinedFor g.interfaces.length c → (∃ r g', g.Call strictAbs c (.ok (r, g'))) ∧ ∀ u, ¬ g.Call strictAbs c (.ub u)) ∧
    (¬ DefinedFor g.interfaces.length c → (∃ u, g.Call strictAbs c (.ub u)) ∧ ∀ r g', ¬ g.Call strictAbs c (.ok (r, g'))) ∧
    ∀ r g', g.Call strictAbs c (.ok (r, g')) → g'.interfaces.map Iface.fd = g.interfaces.map Iface.fd :=
  ⟨(exact g hg c hp).returns, (exact g hg c hp).undefined, (exact g hg c hp).same⟩

theorem fd_length {g g' : Group} (h : g'.interfaces.map Iface.fd = g.interfaces.map Iface.fd) : g'.interfaces.length = g.interfaces.length := by
  have := congrArg List.length h
  simpa using this

/-- C127, partial, exactly: a sequence of calls gets to its end iff each of them, for itself, is one of those defined. -/
theorem C127_session_iff_partial (g : Group) (hg : g.interfaces.length ≤ 255) (calls : List GroupCall) (hp : ∀ c ∈ calls, Possible c) :
    (∃ rs g', g.Session strictAbs calls rs g') ↔ ∀ c ∈ calls, DefinedFor g.interfaces.length c := by
  induction calls generalizing g with
  | nil => exact ⟨fun _ c hc => absurd hc (by simp), fun _ => ⟨[], g, .nil g⟩⟩
  | cons c cs ih =>
    have hx := exact g hg c (hp c List.mem_cons_self)
    have hp' : ∀ c ∈ cs, Possible c := fun d hd => hp d (List.mem_cons_of_mem _ hd)
    constructor
    · rintro ⟨rs, g'', h⟩
      cases h with
      | @cons _ g' _ _ _ r rs hcall hrest =>
        have hlen := fd_length (hx.same r g' hcall)
        intro d hd
        rcases List.mem_cons.1 hd with rfl | hd
        · exact Classical.byContradiction fun hn => (hx.undefined hn).2 r g' hcall
        · have := (ih g' (by omega) hp').1 ⟨_, _, hrest⟩ d hd
          rw [hlen] at this
          exact this
    · intro h
      obtain ⟨⟨r, g', hcall⟩, -⟩ := hx.returns (h c List.mem_cons_self)
      have hlen := fd_length (hx.same r g' hcall)
      obtain ⟨rs, g'', hs⟩ := (ih g' (by omega) hp').2 fun d hd => by rw [hlen]; exact h d (List.mem_cons_of_mem _ hd)
      exact ⟨_, _, .cons hcall hs⟩

/-- C127, partial: what the comments allow is defined, but for polling with `select`. -/
theorem C127_allowed_partial (g : Group) (hg : g.interfaces.length ≤ 255) (calls : List GroupCall) (h : ∀ c ∈ calls, Allowed c ∧ Possible c)
    (h0 : ∀ t ig ans, GroupCall.select t ig ans ∈ calls → t.usec ≠ 0) :
    ∃ rs g', g.Session strictAbs calls rs g' ∧ rs.length = calls.length ∧ g'.interfaces.map Iface.fd = g.interfaces.map Iface.fd := by
  have hlen : ∀ {g g' : Group} {calls : List GroupCall} {rs : List Result}, g.interfaces.length ≤ 255 → (∀ c ∈ calls, Possible c) →
      g.Session strictAbs calls rs g' → rs.length = calls.length ∧ g'.interfaces.map Iface.fd = g.interfaces.map Iface.fd := by
    intro g g' calls rs hg hp hs
    induction hs with
    | nil g => exact ⟨rfl, rfl⟩
    | @cons g g' g'' c cs r rs hcall hrest ih =>
      have e := (exact g hg c (hp c List.mem_cons_self)).same r g' hcall
      have := fd_length e
      obtain ⟨a, b⟩ := ih (by omega) fun d hd => hp d (List.mem_cons_of_mem _ hd)
      exact ⟨by simp [a], b.trans e⟩
  obtain ⟨rs, g', hs⟩ := (C127_session_iff_partial g hg calls fun c hc => (h c hc).2).2 (by
    intro c hc
    have ha := (h c hc).1
    cases c with
    | write index frames n ans => exact fun _ => ha
    | read index buf ans => trivial
    | reconfigureFilters fc num ans =>
      obtain ⟨h5, hl⟩ := ha
      cases fc with
      | none => exact .inr (.inr (.inl ⟨rfl, h5⟩))
      | some l => exact .inr (.inr (.inr ⟨by omega, l, rfl, hl l rfl⟩))
    | select t ig ans => exact h0 t ig ans hc)
  obtain ⟨a, b⟩ := hlen hg (fun c hc => (h c hc).2) hs
  exact ⟨rs, g', hs, a, b⟩

/-- C127 is false of the code: to ask without waiting whether something can be read is undefined. -/
theorem C127_full_statement_fails : ¬ C127_Statement ∧
    ∀ (g : Group) (ig : Bool) (ans : PollAns), g.Call strictAbs (.select ⟨0⟩ ig ans) (.ub .absOfMin) := by
  have hub : ∀ (g : Group) (ig : Bool) (ans : PollAns), g.Call strictAbs (.select ⟨0⟩ ig ans) (.ub .absOfMin) := by
    intro g ig ans
    have := Group.Call.select (abs := strictAbs) (g := g) ⟨0⟩ ig ans
    rw [(C43_zero_partial g ig ans).1] at this
    exact this
  refine ⟨fun h => ?_, hub⟩
  obtain ⟨rs, g', hs⟩ := h ⟨[]⟩ [.select ⟨0⟩ true ⟨0, []⟩] (by decide) (by
    intro c hc
    rw [List.mem_singleton.1 hc]
    exact ⟨⟨by decide, by decide⟩, by decide, by decide⟩)
  have := (C127_session_iff_partial ⟨[]⟩ (by decide) [.select ⟨0⟩ true ⟨0, []⟩] (by
    intro c hc
    rw [List.mem_singleton.1 hc]
    exact ⟨by decide, by decide⟩)).1 ⟨rs, g', hs⟩ _ List.mem_cons_self
  exact this rfl

/-- C127: waiting, reading, new filters, and a write to an interface there is not. -/
example : ∀ c ∈ [GroupCall.select ⟨5⟩ false ⟨0, []⟩, .read 0 (Vector.replicate 4 Frame.default) ⟨-1, 11, []⟩, .reconfigureFilters (some [⟨1, 1⟩]) 1 (fun _ => -1),
    .write 7 (Vector.replicate 4 Frame.default) 9 ⟨-1, 105⟩], Possible c ∧ DefinedFor 2 c := by
  intro c hc
  simp only [List.mem_cons, List.not_mem_nil, or_false] at hc
  rcases hc with rfl | rfl | rfl | rfl
  · exact ⟨⟨by decide, by decide⟩, show (5 : Int) ≠ 0 by decide⟩
  · exact ⟨⟨by decide, fun h => absurd h (by decide)⟩, trivial⟩
  · exact ⟨trivial, .inr (.inr (.inr ⟨by decide, _, rfl, by decide⟩))⟩
  · exact ⟨trivial, fun h => absurd h (by decide)⟩

end Uavcan.SocketCan
