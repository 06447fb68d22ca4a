import Verif.Lemmas.SocketManager

/-!
# C47–C50: the SocketCAN interface manager
-/

namespace Uavcan.SocketCan
open Spec

/-! ## C46, the number of filters -/

/-- C46, partial: `getMaxFrameFilters` is exactly the number of filters the kernel accepts (for fewer than 2^29 filters). -/
theorem C46_max_filters_partial (m : Manager) (fd : Int) (l : List Filter) (hl : l.length < 2 ^ 29) :
    ∃ call, configureFilters fd (some l) l.length 0 = .ok (.Success, some call) ∧
      (ValidSetFilter call 0 ↔ l.length ≤ m.getMaxFrameFilters) := by
  refine ⟨filterCall (some l) l.length fd, ?_, ?_⟩
  · rw [configureFilters_ok (.inr ⟨by omega, l, rfl, Nat.le_refl _⟩)]; rfl
  · simp only [ValidSetFilter, filterCall, Manager.getMaxFrameFilters, true_imp_iff]
    omega

example : ¬ ValidSetFilter ⟨3, List.replicate 513 ⟨0, 0⟩, 513 * 8⟩ 0 ∧ ValidSetFilter ⟨3, List.replicate 512 ⟨0, 0⟩, 512 * 8⟩ 0 := by
  simp [ValidSetFilter]

/-! ## C47 -/

/-- The interfaces that can be opened, in the order required: name and descriptor. -/
def grantedIfaces (m : Manager) (ans : Nat → OpenAns) : List (String × Int) :=
  (m.required.zipIdx.filter fun p => CanOpen m p.1 (ans p.2)).map fun p => (p.1, (ans p.2).socket)

/-- The property as stated in `properties.jsonl`, for a non-empty list of required interfaces and a readable filter array. -/
def C47_Statement : Prop :=
  ∀ (m : Manager) (fc : Option (List Filter)) (num : Nat) (out : Option Group) (ans : Nat → OpenAns),
    m.required ≠ [] → (num = 0 ∨ (num < 2 ^ 32 ∧ ∃ l, fc = some l ∧ num ≤ l.length)) →
    ∃ fuel r g evs, m.startInterfaceGroup fc num out ans fuel = some (.ok (r, g, evs)) ∧
      (r = .Success ↔ ∀ j (h : j < m.required.length), CanOpen m m.required[j] (ans j)) ∧
      (r = .SuccessPartial ↔ (∃ j, ∃ h : j < m.required.length, CanOpen m m.required[j] (ans j)) ∧
        ∃ j, ∃ h : j < m.required.length, ¬ CanOpen m m.required[j] (ans j)) ∧
      (r = .NotFound ↔ ∀ j (h : j < m.required.length), ¬ CanOpen m m.required[j] (ans j)) ∧
      (r.isSuccess = true → ∃ grp, g = some grp ∧
        grp.interfaces.map (fun i => (i.name, i.fd)) = grantedIfaces m ans)

theorem openedFrom_eq (m : Manager) (ans : Nat → OpenAns) (i : Nat) (names : List String)
    (hz : ∀ j, (ans j).socket ≠ 0) :
    (openedFrom m ans i names).map (fun s => (s.name, s.fd)) =
      ((names.zipIdx i).filter fun p => CanOpen m p.1 (ans p.2)).map fun p => (p.1, (ans p.2).socket) := by
  induction names generalizing i with
  | nil => rfl
  | cons n ns ih =>
    have : Opens m n (ans i) ↔ CanOpen m n (ans i) := ⟨fun h => h.1, fun h => ⟨h, hz i⟩⟩
    simp only [openedFrom, List.map_append, ih, List.zipIdx_cons, List.filter_cons]
    by_cases h : CanOpen m n (ans i)
    · simp [this.2 h, h, Iface.mk']
    · have hn : ¬ Opens m n (ans i) := fun hh => h hh.1
      simp [hn, h]

/-- C47, partial: it holds for one to 255 required interfaces, as long as the system never hands out descriptor 0.
Missing: more than 255 interfaces and descriptor 0, see `C47_full_statement_fails`. -/
theorem C47_start_partial (m : Manager) (fc : Option (List Filter)) (num : Nat) (out : Option Group) (ans : Nat → OpenAns)
    (hne : m.required ≠ []) (hl : m.required.length ≤ 255) (hz : ∀ j, (ans j).socket ≠ 0)
    (hf : num = 0 ∨ (num < 2 ^ 32 ∧ ∃ l, fc = some l ∧ num ≤ l.length)) :
    ∃ fuel r g evs, m.startInterfaceGroup fc num out ans fuel = some (.ok (r, g, evs)) ∧
      (r = .Success ↔ ∀ j (h : j < m.required.length), CanOpen m m.required[j] (ans j)) ∧
      (r = .SuccessPartial ↔ (∃ j, ∃ h : j < m.required.length, CanOpen m m.required[j] (ans j)) ∧
        ∃ j, ∃ h : j < m.required.length, ¬ CanOpen m m.required[j] (ans j)) ∧
      (r = .NotFound ↔ ∀ j (h : j < m.required.length), ¬ CanOpen m m.required[j] (ans j)) ∧
      (r.isSuccess = true → ∃ grp, g = some grp ∧
        grp.interfaces.map (fun i => (i.name, i.fd)) = grantedIfaces m ans) := by
  obtain ⟨evs, ifs, hifs, -, hst⟩ := start_ok hf m hl ans out (m.required.length + 1) (by omega)
  have hiff : ∀ n j, Opens m n (ans j) ↔ CanOpen m n (ans j) := fun n j => ⟨fun h => h.1, fun h => ⟨h, hz j⟩⟩
  obtain ⟨l1, l2, l3⟩ := openedFrom_length m ans 0 m.required
  simp only [← hifs, Nat.zero_add, hiff] at l1 l2 l3
  have hpos : 0 < m.required.length := List.length_pos_iff.2 hne
  by_cases he : ifs = []
  · rw [if_pos he] at hst
    have hnone := l3.1 he
    refine ⟨_, _, _, _, hst, ?_, ?_, ?_, ?_⟩
    · simp only [reduceCtorEq, false_iff]
      intro h
      exact hnone 0 hpos (h 0 hpos)
    · simp only [reduceCtorEq, false_iff]
      rintro ⟨⟨j, hj, h⟩, -⟩
      exact hnone j hj h
    · simp only [true_iff]; exact hnone
    · intro h; cases h
  · rw [if_neg he] at hst
    have hsome : ∃ j, ∃ h : j < m.required.length, CanOpen m m.required[j] (ans j) := by
      apply Classical.byContradiction
      intro hn
      exact he (l3.2 (fun j hj hc => hn ⟨j, hj, hc⟩))
    refine ⟨_, _, _, _, hst, ?_, ?_, ?_, ?_⟩
    · rw [← l2]
      by_cases hc : m.required.length ≤ ifs.length
      · rw [if_pos hc]; simp; omega
      · rw [if_neg hc]; simp; omega
    · by_cases hc : m.required.length ≤ ifs.length
      · rw [if_pos hc]
        simp only [reduceCtorEq, false_iff]
        rintro ⟨-, j, hj, h⟩
        exact h (l2.1 (by omega) j hj)
      · rw [if_neg hc]
        simp only [true_iff]
        refine ⟨hsome, ?_⟩
        apply Classical.byContradiction
        intro hn
        apply hc
        rw [l2.2 (fun j hj => Classical.byContradiction fun hh => hn ⟨j, hj, hh⟩)]
        exact Nat.le_refl _
    · obtain ⟨j, hj, h⟩ := hsome
      constructor
      · intro hh; by_cases hc : m.required.length ≤ ifs.length <;> simp [hc] at hh
      · intro hh; exact absurd h (hh j hj)
    · intro _
      refine ⟨_, rfl, ?_⟩
      simp only [hifs, grantedIfaces]
      exact openedFrom_eq m ans 0 m.required hz

/-- C47 is false of the code: with 256 required interfaces it never returns, whatever the system answers; and an interface whose
socket gets descriptor 0 is refused. -/
theorem C47_full_statement_fails : ¬ C47_Statement ∧
    (∀ (m : Manager) (fc : Option (List Filter)) (num : Nat) (out : Option Group) (ans : Nat → OpenAns),
      256 ≤ m.required.length → (num = 0 ∨ (num < 2 ^ 32 ∧ ∃ l, fc = some l ∧ num ≤ l.length)) →
      ∀ fuel, m.startInterfaceGroup fc num out ans fuel = none) ∧
    (∃ m : Manager, ∃ a : OpenAns, m.required = ["can0"] ∧ CanOpen m "can0" a ∧
      ∃ evs, m.startInterfaceGroup none 0 none (fun _ => a) 2 = some (.ok (.NotFound, none, evs)) ∧
        openAfter [] evs = [0]) := by
  have h256 : ∀ (m : Manager) (fc : Option (List Filter)) (num : Nat) (out : Option Group) (ans : Nat → OpenAns),
      256 ≤ m.required.length → (num = 0 ∨ (num < 2 ^ 32 ∧ ∃ l, fc = some l ∧ num ≤ l.length)) →
      ∀ fuel, m.startInterfaceGroup fc num out ans fuel = none := by
    intro m fc num out ans hl hf fuel
    simp only [Manager.startInterfaceGroup, startLoop_forever hf m hl ans fuel 0 0 (by decide) [] []]
  refine ⟨?_, h256, ⟨["can0"], true, true⟩, { socket := 0 }, rfl, by decide, _, rfl, by decide⟩
  intro h
  obtain ⟨fuel, r, g, evs, h1, -⟩ := h ⟨List.replicate 256 "can0", false, false⟩ none 0 none (fun _ => { socket := 3 })
    (by simp only [ne_eq, List.replicate_eq_nil_iff]; decide) (.inl rfl)
  rw [h256 _ _ _ _ _ (by rw [List.length_replicate]; exact Nat.le_refl _) (.inl rfl)] at h1
  cases h1

/-- C47, partial: without required interfaces the answer is `NotFound`. -/
theorem C47_no_interfaces_partial (m : Manager) (fc : Option (List Filter)) (num : Nat) (out : Option Group)
    (ans : Nat → OpenAns) (h : m.required = []) :
    m.startInterfaceGroup fc num out ans 1 = some (.ok (.NotFound, out, [])) := by
  simp [Manager.startInterfaceGroup, Manager.startLoop, h]

/-- Three interfaces, of which the second cannot be bound. -/
example : ((⟨["can0", "can1", "can2"], true, false⟩ : Manager).startInterfaceGroup none 0 none
    (fun k => if k = 1 then { socket := 4, bind := -1 } else { socket := 3 + k }) 9).map
      (fun o => o.bind fun r => .ok (r.1, r.2.1.map fun g => g.interfaces.map fun i => (i.index, i.name, i.fd))) =
    some (.ok (.SuccessPartial, some [(0, "can0", 3), (2, "can2", 5)])) := rfl

/-! ## C48 -/

/-- The property as stated in `properties.jsonl`. -/
def C48_Statement : Prop :=
  ∀ (m : Manager) (fc : Option (List Filter)) (num : Nat) (out : Option Group) (ans : Nat → OpenAns) (fuel : Nat)
    (r : Result) (g : Option Group) (evs : List FdEv),
    m.startInterfaceGroup fc num out ans fuel = some (.ok (r, g, evs)) → r.isFailure = true → g = none

/-- C48, partial: a failing start leaves the pointer as it was, so it is null afterwards exactly if it was null before; a
successful start always sets it. Missing: it should be null in any case. -/
theorem C48_failed_start_partial (m : Manager) (fc : Option (List Filter)) (num : Nat) (out : Option Group)
    (ans : Nat → OpenAns) (fuel : Nat) (r : Result) (g : Option Group) (evs : List FdEv)
    (h : m.startInterfaceGroup fc num out ans fuel = some (.ok (r, g, evs))) :
    (r.isFailure = true → g = out) ∧ (r.isFailure = true → (g = none ↔ out = none)) ∧
    (r.isFailure = false → g ≠ none ∧ owned g ≠ []) := by
  simp only [Manager.startInterfaceGroup] at h
  split at h
  · cases h
  · cases h
  · rename_i ifs e he
    split at h
    · injection h with h; injection h with h; injection h with h1 h2; injection h2 with h2 h3
      subst h1 h2
      exact ⟨fun _ => rfl, fun _ => Iff.rfl, fun hf => by cases hf⟩
    · rename_i hne
      injection h with h; injection h with h; injection h with h1 h2; injection h2 with h2 h3
      subst h2
      have hs : r.isFailure = false := by
        rw [← h1]; split <;> rfl
      rw [hs]
      refine ⟨fun hf => (by cases hf), fun hf => (by cases hf), fun _ => ⟨by simp, ?_⟩⟩
      simp only [owned, ne_eq, List.map_eq_nil_iff]
      intro h0; exact hne (by rw [h0]; rfl)

/-- C48 is false of the code: a start that fails leaves the old group in place. -/
theorem C48_full_statement_fails : ¬ C48_Statement := by
  intro h
  have := h ⟨["can0"], false, false⟩ none 0 (some ⟨[Iface.mk' 0 "can0" 3]⟩) (fun _ => { socket := -1 }) 2
    .NotFound (some ⟨[Iface.mk' 0 "can0" 3]⟩) [] rfl rfl
  cases this

example : (⟨["can0"], false, false⟩ : Manager).startInterfaceGroup none 0 none (fun _ => { socket := -1 }) 2 =
    some (.ok (.NotFound, none, [])) := rfl

/-! ## C49 -/

/-- The property as stated in `properties.jsonl`. -/
def C49_Statement : Prop :=
  ∀ (m : Manager) (fc : Option (List Filter)) (num : Nat) (ans : Nat → OpenAns) (fuel : Nat)
    (r : Result) (g : Group) (evs : List FdEv),
    (num = 0 ∨ (num < 2 ^ 32 ∧ ∃ l, fc = some l ∧ num ≤ l.length)) →
    m.startInterfaceGroup fc num none ans fuel = some (.ok (r, some g, evs)) →
    ∀ k, k < g.getInterfaceCount → ∃ i, g.getInterface k = some i ∧ i.index = k ∧ g.getInterfaceName k = i.name

theorem openedFrom_index_ge (m : Manager) (ans : Nat → OpenAns) (i : Nat) (names : List String) :
    ∀ s ∈ openedFrom m ans i names, i ≤ s.index := by
  intro s hs
  obtain ⟨j, -, rfl, -⟩ := openedFrom_mem m ans i names s hs
  simp [Iface.mk']

theorem openedFrom_dense (m : Manager) (ans : Nat → OpenAns) (i : Nat) (names : List String) :
    (∀ k (h : k < (openedFrom m ans i names).length), (openedFrom m ans i names)[k].index = i + k) ↔
      ∀ j j' (hj : j < names.length) (hj' : j' < names.length), j < j' → Opens m names[j'] (ans (i + j')) →
        Opens m names[j] (ans (i + j)) := by
  induction names generalizing i with
  | nil => simp [openedFrom]
  | cons n ns ih =>
    by_cases ho : Opens m n (ans i)
    · have e : openedFrom m ans i (n :: ns) = Iface.mk' i n (ans i).socket :: openedFrom m ans (i + 1) ns := by
        simp [openedFrom, ho]
      have hl : (∀ k (h : k < (openedFrom m ans i (n :: ns)).length), (openedFrom m ans i (n :: ns))[k].index = i + k) ↔
          (∀ k (h : k < (openedFrom m ans (i + 1) ns).length), (openedFrom m ans (i + 1) ns)[k].index = i + 1 + k) := by
        simp only [e]
        constructor
        · intro h k hk
          have := h (k + 1) (by simp; omega)
          simp only [List.getElem_cons_succ] at this
          omega
        · intro h k hk
          cases k with
          | zero => rfl
          | succ k =>
            have := h k (by simp at hk; omega)
            simp only [List.getElem_cons_succ]
            omega
      rw [hl, ih]
      constructor
      · intro h j j' hj hj' hlt hop
        cases j with
        | zero => exact ho
        | succ j =>
          cases j' with
          | zero => omega
          | succ j' =>
            have := h j j' (by simp at hj; omega) (by simp at hj'; omega) (by omega)
            rw [show i + 1 + j' = i + (j' + 1) by omega, show i + 1 + j = i + (j + 1) by omega] at this
            simpa using this (by simpa using hop)
      · intro h j j' hj hj' hlt hop
        have := h (j + 1) (j' + 1) (by simp; omega) (by simp; omega) (by omega)
        rw [show i + (j' + 1) = i + 1 + j' by omega, show i + (j + 1) = i + 1 + j by omega] at this
        simpa using this (by simpa using hop)
    · have e : openedFrom m ans i (n :: ns) = openedFrom m ans (i + 1) ns := by simp [openedFrom, ho]
      have hnil : (∀ k (h : k < (openedFrom m ans i (n :: ns)).length),
          (openedFrom m ans i (n :: ns))[k].index = i + k) ↔ openedFrom m ans (i + 1) ns = [] := by
        simp only [e]
        constructor
        · intro h
          apply Classical.byContradiction
          intro hne
          have hp := List.length_pos_iff.2 hne
          have h0 := h 0 hp
          have := openedFrom_index_ge m ans (i + 1) ns _ (List.getElem_mem hp)
          omega
        · intro h k hk
          rw [h] at hk
          simp at hk
      rw [hnil, (openedFrom_length m ans (i + 1) ns).2.2]
      constructor
      · intro h j j' hj hj' hlt hop
        cases j' with
        | zero => omega
        | succ j' =>
          have := h j' (by simp at hj'; omega)
          rw [show i + 1 + j' = i + (j' + 1) by omega] at this
          exact absurd (by simpa using hop) this
      · intro h j hj hop
        have := h 0 (j + 1) (by simp) (by simp; omega) (by omega)
        rw [show i + 1 + j = i + (j + 1) by omega] at hop
        exact ho (by simpa using this (by simpa using hop))

/-- C49, partial: name and object always belong together, and the index an interface reports is its position among the *required*
interfaces; it is the position in the group for every interface exactly if no interface failed to open before one
that was opened. Missing: all other cases. -/
theorem C49_index_partial (m : Manager) (fc : Option (List Filter)) (num : Nat) (ans : Nat → OpenAns)
    (hl : m.required.length ≤ 255) (hz : ∀ j, (ans j).socket ≠ 0)
    (hf : num = 0 ∨ (num < 2 ^ 32 ∧ ∃ l, fc = some l ∧ num ≤ l.length))
    (hsome : ∃ j, ∃ h : j < m.required.length, CanOpen m m.required[j] (ans j)) :
    ∃ fuel r g evs, m.startInterfaceGroup fc num none ans fuel = some (.ok (r, some g, evs)) ∧
      (∀ k, k < g.getInterfaceCount → ∃ i, g.getInterface k = some i ∧ g.getInterfaceName k = i.name ∧
        m.required[i.index]? = some i.name) ∧
      ((∀ k, k < g.getInterfaceCount → ∃ i, g.getInterface k = some i ∧ i.index = k) ↔
        ∀ j j' (hj : j < m.required.length) (hj' : j' < m.required.length), j < j' →
          CanOpen m m.required[j'] (ans j') → CanOpen m m.required[j] (ans j)) := by
  obtain ⟨evs, ifs, hifs, -, hst⟩ := start_ok hf m hl ans none (m.required.length + 1) (by omega)
  have hiff : ∀ n j, Opens m n (ans j) ↔ CanOpen m n (ans j) := fun n j => ⟨fun h => h.1, fun h => ⟨h, hz j⟩⟩
  obtain ⟨l1, l2, l3⟩ := openedFrom_length m ans 0 m.required
  have hd := openedFrom_dense m ans 0 m.required
  have hm := openedFrom_mem m ans 0 m.required
  simp only [← hifs, Nat.zero_add, hiff] at l1 l2 l3 hd hm
  have he : ifs ≠ [] := by
    intro he
    obtain ⟨j, hj, h⟩ := hsome
    exact l3.1 he j hj h
  rw [if_neg he] at hst
  have hcount : (⟨ifs⟩ : Group).getInterfaceCount = ifs.length := by simp only [Group.getInterfaceCount]; omega
  refine ⟨_, _, _, _, hst, ?_, ?_⟩
  · intro k hk
    rw [hcount] at hk
    refine ⟨ifs[k], List.getElem?_eq_getElem hk, by simp [Group.getInterfaceName, List.getElem?_eq_getElem hk], ?_⟩
    obtain ⟨j, hj, h1, -⟩ := hm _ (List.getElem_mem hk)
    rw [h1]
    simp [Iface.mk', List.getElem?_eq_getElem hj]
  · rw [← hd, hcount]
    constructor
    · intro h k hk
      obtain ⟨i, h1, h2⟩ := h k hk
      simp only [Group.getInterface, List.getElem?_eq_getElem hk, Option.some.injEq] at h1
      rw [h1, h2]
    · intro h k hk
      exact ⟨ifs[k], List.getElem?_eq_getElem hk, h k hk⟩

/-- C49, partial: an index that is not in the group gives the null pointer and the name "<bad index>". -/
theorem C49_bad_index_partial (g : Group) (k : Nat) (h : g.interfaces.length ≤ k) :
    g.getInterface k = none ∧ g.getInterfaceName k = "<bad index>" := by
  simp [Group.getInterface, Group.getInterfaceName, List.getElem?_eq_none h]

/-- C49, partial: the count an application sees never exceeds the number of interfaces, so every index below it is good, and
it is the number of interfaces up to 255. -/
theorem C49_count_partial (g : Group) :
    (∀ k, k < g.getInterfaceCount → g.getInterface k ≠ none) ∧
    (g.interfaces.length ≤ 255 → g.getInterfaceCount = g.interfaces.length) ∧
    (255 ≤ g.interfaces.length → g.getInterfaceCount = 255) := by
  refine ⟨fun k hk => ?_, fun h => ?_, fun h => ?_⟩
  · have : k < g.interfaces.length := by simp only [Group.getInterfaceCount] at hk; omega
    simp [Group.getInterface, List.getElem?_eq_getElem this]
  · simp only [Group.getInterfaceCount]; omega
  · simp only [Group.getInterfaceCount]; omega

/-- C49 is false of the code: if only the second of two interfaces can be opened, it is number 0 in the group and says 1. -/
theorem C49_full_statement_fails : ¬ C49_Statement := by
  intro h
  obtain ⟨i, h1, h2, -⟩ := h ⟨["can0", "can1"], false, false⟩ none 0
    (fun k => if k = 0 then { socket := -1 } else { socket := 3 }) 3 .SuccessPartial ⟨[Iface.mk' 1 "can1" 3]⟩
    _ (.inl rfl) rfl 0 (by decide)
  injection h1 with h1
  rw [← h1] at h2
  cases h2

example : CanOpen ⟨["can0"], true, true⟩ "can0" { socket := 3 } ∧
    ¬ CanOpen ⟨["can0"], true, true⟩ "can0" { socket := 3, own := -1 } ∧
    ¬ CanOpen ⟨["can0"], true, true⟩ "an-interface-nam" { socket := 3 } := by decide

/-! ## C50 -/

/-- The property as stated in `properties.jsonl`: over every history of starts and stops, on a kernel that only hands out
descriptors that are not open: nothing is closed that is not open, no two interfaces share a descriptor, and
in the end exactly the descriptors that were open before and those owned by the group are open. -/
def C50_Statement : Prop :=
  ∀ (m : Manager) (ops : List ManagerOp) (fuel : Nat) (g : Option Group) (evs : List FdEv) (o : List Int),
    m.run fuel none [] ops = some (.ok (g, evs)) → o.Nodup → Fresh o evs →
      NoBadClose o evs ∧ (owned g).Nodup ∧ ∀ fd, fd ∈ openAfter o evs ↔ fd ∈ o ∨ fd ∈ owned g

/-- The calls whose filter arrays can be read. -/
def ReadableFilters : ManagerOp → Prop
  | .start fc num _ => num = 0 ∨ (num < 2 ^ 32 ∧ ∃ l, fc = some l ∧ num ≤ l.length)
  | .stop => True

/-- C50, partial: over every history, no descriptor is closed twice (or without being open), no two interfaces share one, and
the only descriptor that can be left open without an owner is number 0. Missing: number 0. -/
theorem C50_descriptors_partial (m : Manager) (hl : m.required.length ≤ 255) (ops : List ManagerOp)
    (hops : ∀ op ∈ ops, ReadableFilters op) :
    ∃ fuel g evs, m.run fuel none [] ops = some (.ok (g, evs)) ∧
      ∀ o, o.Nodup → Fresh o evs →
        NoBadClose o evs ∧ (owned g).Nodup ∧ (openAfter o evs).Nodup ∧
        (∀ fd, fd ≠ 0 → (fd ∈ openAfter o evs ↔ fd ∈ o ∨ fd ∈ owned g)) ∧
        (∀ fd, fd ∈ owned g → fd ∉ o) := by
  obtain ⟨g, evs, h1, h2⟩ := run_fds m hl (m.required.length + 1) (by omega) none ops
    (fun op h => by
      have := hops op h
      cases op <;> exact this) []
  refine ⟨_, g, evs, by simpa using h1, ?_⟩
  intro o ho hfr
  obtain ⟨a, b, l, c⟩ := h2 o ⟨ho, by simp [owned], by simp [owned], by simp [owned]⟩ hfr
  have e : owned none = [] := rfl
  simp only [e, List.not_mem_nil, not_false_eq_true, and_true] at c
  refine ⟨a, b.ownNodup, b.nodup, ?_, ?_⟩
  · intro fd hfd
    have := c fd
    have := b.sub fd
    grind
  · intro fd hfd
    have := c fd
    grind

/-- C50, partial: it holds in full as long as descriptor 0 is open at the start, which makes the kernel never hand it out. -/
theorem C50_no_leak_partial (m : Manager) (hl : m.required.length ≤ 255) (ops : List ManagerOp)
    (hops : ∀ op ∈ ops, ReadableFilters op) :
    ∃ fuel g evs, m.run fuel none [] ops = some (.ok (g, evs)) ∧
      ∀ o, o.Nodup → (0 : Int) ∈ o → Fresh o evs →
        NoBadClose o evs ∧ (owned g).Nodup ∧ ∀ fd, fd ∈ openAfter o evs ↔ fd ∈ o ∨ fd ∈ owned g := by
  obtain ⟨g, evs, h1, h2⟩ := run_fds m hl (m.required.length + 1) (by omega) none ops
    (fun op h => by
      have := hops op h
      cases op <;> exact this) []
  refine ⟨_, g, evs, by simpa using h1, ?_⟩
  intro o ho h0 hfr
  obtain ⟨a, b, l, c⟩ := h2 o ⟨ho, by simp [owned], by simp [owned], by simp [owned]⟩ hfr
  have e : owned none = [] := rfl
  simp only [e, List.not_mem_nil, not_false_eq_true, and_true] at c
  refine ⟨a, b.ownNodup, ?_⟩
  intro fd
  have := c fd
  have := b.sub fd
  grind

/-- C50, partial: stopping a group succeeds, leaves a null pointer, and closes each descriptor owned, once. -/
theorem C50_stop_partial (m : Manager) (g : Option Group) :
    ∃ evs, m.stopInterfaceGroup g = (.Success, none, evs) ∧ evs = (owned g).map .closed :=
  ⟨closeGroup g, rfl, closeGroup_eq g⟩

/-- C50 is false of the code: a socket with descriptor 0 is neither kept nor closed. -/
theorem C50_full_statement_fails : ¬ C50_Statement := by
  intro h
  have := (h ⟨["can0"], false, false⟩ [.start none 0 (fun _ => { socket := 0 }), .stop] 2 none _ [] rfl
    (by decide) (by simp [Fresh, Manager.stopInterfaceGroup, closeGroup])).2.2 0
  revert this
  decide

/-- A history with a failing bind, a restart and a stop: three sockets are opened, all are closed. -/
example : ((⟨["can0", "can1"], false, false⟩ : Manager).run 3 none []
    [.start none 0 (fun k => if k = 0 then { socket := 3, bind := -1 } else { socket := 3 }),
     .start none 0 (fun k => if k = 0 then { socket := -1 } else { socket := 4 }), .stop]).map
      (fun o => o.bind fun r => .ok (r.1.isNone, r.2.filter fun e => match e with | .call _ _ => false | _ => true)) =
    some (.ok (true, [.opened 3, .closed 3, .opened 3, .opened 4, .closed 3, .closed 4])) := by decide

end Uavcan.SocketCan
