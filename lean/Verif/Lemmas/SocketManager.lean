import Verif.Spec.SocketManager
import Verif.Lemmas.SocketGroup

namespace Uavcan.SocketCan
open Spec

/-- An interface is opened by the code: as `CanOpen`, except that descriptor 0 is refused. -/
def Opens (m : Manager) (name : String) (a : OpenAns) : Prop := CanOpen m name a ∧ a.socket ≠ 0

instance (m : Manager) (name : String) (a : OpenAns) : Decidable (Opens m name a) := by unfold Opens; infer_instance

theorem takeWhile_self {α : Type} {p : α → Bool} {l : List α} : l.takeWhile p = l ↔ ∀ x ∈ l, p x = true := by
  induction l with
  | nil => simp
  | cons a l ih =>
    rw [List.takeWhile_cons]
    cases h : p a <;> simp [h, ih]

theorem cName_eq (s : String) : cName s = s ↔ '\x00' ∉ s.toList := by
  have e : cName s = s ↔ s.toList.takeWhile (· ≠ '\x00') = s.toList := by
    unfold cName
    constructor
    · intro h
      have := congrArg String.toList h
      rwa [String.toList_ofList] at this
    · intro h
      rw [h, String.ofList_toList]
  rw [e, takeWhile_self]
  simp only [decide_not, Bool.not_eq_eq_eq_not, Bool.not_true, decide_eq_false_iff_not]
  exact ⟨fun h hx => h _ hx rfl, fun h x hx e => h (e ▸ hx)⟩

/-- The calls made while opening a socket. -/
def setupCalls (m : Manager) (name : String) (a : OpenAns) : List SockCall :=
  (((if m.enable_can_fd then [.canFd] else []) ++ (if m.receive_own then [.receiveOwn] else [])) ++ [.ifindex (cName name)]) ++
    [.bind a.ifindex] ++ [.timestamp, .rxqOvfl, .errFilter, .soError]

/-- A call made while an interface is created; `F` are those that set the filters. -/
def IsSetup (F : Int → SetFilter) (fd : Int) : SockCall → Prop
  | .filters c => c = F fd
  | .send _ => False
  | _ => True

/-- The events of one pass: nothing; opened and kept; opened and closed again; or descriptor 0 opened and lost. In between there
are calls. -/
inductive PassEv (F : Int → SetFilter) (m : Manager) (name : String) (a : OpenAns) : List FdEv → Prop
  | none : ¬ Opens m name a → PassEv F m name a []
  | kept : Opens m name a → PassEv F m name a
      (.opened a.socket :: (setupCalls m name a ++ [SockCall.filters (F a.socket)]).map (.call a.socket))
  | closed (fd) (cs : List SockCall) : ¬ Opens m name a → (∀ c ∈ cs, IsSetup F fd c) →
      PassEv F m name a (.opened fd :: (cs.map (.call fd) ++ [.closed fd]))
  | lost (cs : List SockCall) : ¬ Opens m name a → a.socket = 0 → (∀ c ∈ cs, IsSetup F 0 c) →
      PassEv F m name a (.opened 0 :: cs.map (.call 0))

theorem setupCalls_setup (F : Int → SetFilter) (fd : Int) (m : Manager) (name : String) (a : OpenAns) :
    ∀ c ∈ setupCalls m name a, IsSetup F fd c := by
  unfold setupCalls
  cases m.enable_can_fd <;> cases m.receive_own <;> simp [IsSetup]

theorem openSocket_cases (F : Int → SetFilter) (m : Manager) (name : String) (a : OpenAns) :
    ((openSocket name m.enable_can_fd m.receive_own a =
          (a.socket, .opened a.socket :: (setupCalls m name a).map (.call a.socket)) ∧ 0 ≤ a.socket ∧
        (CanOpen m name a ↔ a.filter = 0 ∧ a.oom = false)) ∨
     (¬ CanOpen m name a ∧ ((openSocket name m.enable_can_fd m.receive_own a = (a.socket, []) ∧ a.socket < 0) ∨
        ∃ cs : List SockCall, (∀ c ∈ cs, IsSetup F a.socket c) ∧ openSocket name m.enable_can_fd m.receive_own a =
          (-1, .opened a.socket :: (cs.map (.call a.socket) ++ [.closed a.socket]))))) := by
  unfold openSocket
  by_cases h0 : a.socket < 0
  · right
    rw [if_pos h0]
    exact ⟨fun h => by have := h.1; omega, .inl ⟨rfl, h0⟩⟩
  · rw [if_neg h0]
    have f1 : ∀ c ∈ ((if m.enable_can_fd then [SockCall.canFd] else []) : List SockCall), IsSetup F a.socket c := by
      cases m.enable_can_fd <;> simp [IsSetup]
    have f2 : ∀ c ∈ (((if m.enable_can_fd then [SockCall.canFd] else []) ++
        (if m.receive_own then [SockCall.receiveOwn] else [])) : List SockCall), IsSetup F a.socket c := by
      cases m.enable_can_fd <;> cases m.receive_own <;> simp [IsSetup]
    have f3 : ∀ c ∈ (((if m.enable_can_fd then [SockCall.canFd] else []) ++
        (if m.receive_own then [SockCall.receiveOwn] else []) ++ [.ifindex (cName name)]) : List SockCall), IsSetup F a.socket c := by
      cases m.enable_can_fd <;> cases m.receive_own <;> simp [IsSetup]
    have f4 : ∀ c ∈ (((if m.enable_can_fd then [SockCall.canFd] else []) ++
        (if m.receive_own then [SockCall.receiveOwn] else []) ++ [.ifindex (cName name)] ++ [.bind a.ifindex]) : List SockCall), IsSetup F a.socket c := by
      cases m.enable_can_fd <;> cases m.receive_own <;> simp [IsSetup]
    have f5 := setupCalls_setup F a.socket m name a
    unfold setupCalls at f5
    by_cases h1 : (m.enable_can_fd && a.canfd != 0) = true
    · right
      refine ⟨?_, .inr ⟨_, f1, by simp only [h1, if_true]⟩⟩
      intro h
      simp only [Bool.and_eq_true, bne_iff_ne, ne_eq] at h1
      exact h1.2 (h.2.1 h1.1)
    · by_cases h2 : (m.receive_own && a.own != 0) = true
      · right
        refine ⟨?_, .inr ⟨_, f2, by simp only [h1, h2, if_true, Bool.false_eq_true, if_false]⟩⟩
        intro h
        simp only [Bool.and_eq_true, bne_iff_ne, ne_eq] at h2
        exact h2.2 (h.2.2.1 h2.1)
      · by_cases h3 : name.utf8ByteSize ≥ IFNAMSIZ
        · right
          refine ⟨?_, .inr ⟨_, f2, by simp only [h1, h2, h3, if_true, Bool.false_eq_true, if_false]⟩⟩
          intro h
          have := h.2.2.2.1
          simp only [IFNAMSIZ] at h3
          omega
        · by_cases h4 : (a.ioctl < 0 || a.ifindex < 0) = true
          · right
            refine ⟨?_, .inr ⟨_, f3, by simp only [h1, h2, h3, h4, if_true, Bool.false_eq_true, if_false]⟩⟩
            intro h
            have := h.2.2.2.2
            simp only [Bool.or_eq_true, decide_eq_true_eq] at h4
            omega
          · by_cases h5 : a.bind < 0
            · right
              refine ⟨?_, .inr ⟨_, f4, by simp only [h1, h2, h3, h4, h5, if_true, Bool.false_eq_true, if_false]⟩⟩
              intro h
              have := h.2.2.2.2.2.2
              omega
            · by_cases h6 : (a.soError != 0) = true
              · right
                refine ⟨?_, .inr ⟨_, f5, by simp only [h1, h2, h3, h4, h5, h6, if_true, Bool.false_eq_true, if_false]⟩⟩
                intro h
                have := h.2.2.2.2.2.2.2.1
                simp only [bne_iff_ne, ne_eq] at h6
                exact h6 this
              · left
                refine ⟨by simp only [h1, h2, h3, h4, h5, h6, Bool.false_eq_true, if_false]; rfl, by omega, ?_⟩
                simp only [Bool.and_eq_true, bne_iff_ne, ne_eq, not_and, Decidable.not_not, Bool.or_eq_true,
                  decide_eq_true_eq, IFNAMSIZ] at h1 h2 h3 h4 h6
                constructor
                · intro h; exact ⟨h.2.2.2.2.2.2.2.2.1, h.2.2.2.2.2.2.2.2.2⟩
                · intro h
                  exact ⟨by omega, h1, h2, by omega, by omega, by omega, by omega, h6, h.1, h.2⟩

theorem createInterface_ok {fc : Option (List Filter)} {num : Nat} (hf : GoodFilters fc num) (m : Manager) (i : Nat)
    (name : String) (a : OpenAns) :
    ∃ r evs, m.createInterface i name fc num a =
        .ok (r, if Opens m name a then some (Iface.mk' i name a.socket) else none, evs) ∧
      (r.not = false ↔ Opens m name a) ∧ PassEv (filterCall fc num) m name a evs := by
  rcases openSocket_cases (filterCall fc num) m name a with ⟨h1, h2, h3⟩ | ⟨h1, h2⟩
  · by_cases hz : a.socket = 0
    · have hno : ¬ Opens m name a := fun h => h.2 hz
      refine ⟨.UnknownInternalError, _, ?_, ?_, .lost (setupCalls m name a) hno hz (setupCalls_setup _ _ m name a)⟩
      · simp only [Manager.createInterface, h1]
        rw [if_pos (by omega), if_neg hno, hz]
      · simp [hno, Result.not, Result.code]
    · have hop : Opens m name a ↔ a.filter = 0 ∧ a.oom = false :=
        ⟨fun h => h3.1 h.1, fun h => ⟨h3.2 h, hz⟩⟩
      have hcl : ∀ c ∈ setupCalls m name a ++ [SockCall.filters (filterCall fc num a.socket)],
          IsSetup (filterCall fc num) a.socket c := by
        intro c hc
        rcases List.mem_append.1 hc with hc | hc
        · exact setupCalls_setup _ _ m name a c hc
        · rw [List.mem_singleton.1 hc]; rfl
      simp only [Manager.createInterface, h1]
      rw [if_neg (by omega), configureFilters_ok hf]
      simp only [Outcome.ok_bind]
      by_cases hfil : a.filter = 0
      · have e : (if a.filter ≠ 0 then Result.UnknownInternalError else Result.Success) = .Success := by simp [hfil]
        rw [e]
        cases hoom : a.oom with
        | true =>
          have hno : ¬ Opens m name a := fun h => by have := (hop.1 h).2; rw [hoom] at this; cases this
          refine ⟨.OutOfMemory, _, ?_, ?_, .closed a.socket _ hno hcl⟩
          · rw [if_neg hno]; simp [Result.not, Result.code]
          · simp [hno, Result.not, Result.code]
        | false =>
          have ho : Opens m name a := hop.2 ⟨hfil, hoom⟩
          refine ⟨.Success, _, ?_, ?_, .kept ho⟩
          · rw [if_pos ho]; simp [Result.not, Result.code]
          · simp [ho, Result.not, Result.code]
      · have e : (if a.filter ≠ 0 then Result.UnknownInternalError else Result.Success) = .UnknownInternalError := by
          simp [hfil]
        rw [e]
        have hno : ¬ Opens m name a := fun h => hfil (hop.1 h).1
        refine ⟨.UnknownInternalError, _, ?_, ?_, .closed a.socket _ hno hcl⟩
        · rw [if_neg hno]; simp [Result.not, Result.code]
        · simp [hno, Result.not, Result.code]
  · have hno : ¬ Opens m name a := fun h => h1 h.1
    rcases h2 with ⟨h2, h3⟩ | ⟨cs, hcs, h2⟩
    · refine ⟨.UnknownInternalError, [], ?_, ?_, .none hno⟩
      · simp only [Manager.createInterface, h2]
        rw [if_pos (by omega), if_neg hno]
      · simp [hno, Result.not, Result.code]
    · refine ⟨.UnknownInternalError, _, ?_, ?_, .closed a.socket cs hno hcs⟩
      · simp only [Manager.createInterface, h2]
        rw [if_pos (by omega), if_neg hno]
      · simp [hno, Result.not, Result.code]

/-- Every call in a pass is one of these. -/
theorem PassEv.setup {F : Int → SetFilter} {m : Manager} {name : String} {a : OpenAns} {evs : List FdEv}
    (h : PassEv F m name a evs) : ∀ fd c, .call fd c ∈ evs → IsSetup F fd c := by
  intro fd c hc
  cases h with
  | none _ => cases hc
  | kept _ =>
    simp only [List.mem_cons, reduceCtorEq, false_or, List.mem_map, FdEv.call.injEq] at hc
    obtain ⟨c', hc', rfl, rfl⟩ := hc
    rcases List.mem_append.1 hc' with hc' | hc'
    · exact setupCalls_setup F _ m name a _ hc'
    · rw [List.mem_singleton.1 hc']; rfl
  | closed fd' cs _ hs =>
    simp only [List.mem_cons, reduceCtorEq, false_or, List.mem_append, List.mem_map, FdEv.call.injEq, List.not_mem_nil,
      or_false] at hc
    obtain ⟨c', hc', rfl, rfl⟩ := hc
    exact hs _ hc'
  | lost cs _ _ hs =>
    simp only [List.mem_cons, reduceCtorEq, false_or, List.mem_map, FdEv.call.injEq] at hc
    obtain ⟨c', hc', rfl, rfl⟩ := hc
    exact hs _ hc'

/-- The interfaces opened from required index `i` on. -/
def openedFrom (m : Manager) (ans : Nat → OpenAns) (i : Nat) : List String → List Iface
  | [] => []
  | name :: names =>
    (if Opens m name (ans i) then [Iface.mk' i name (ans i).socket] else []) ++ openedFrom m ans (i + 1) names

/-- The events of all passes. -/
inductive LoopEv (F : Int → SetFilter) (m : Manager) (ans : Nat → OpenAns) : Nat → List String → List FdEv → Prop
  | nil (i) : LoopEv F m ans i [] []
  | cons {i name names e evs} : PassEv F m name (ans i) e → LoopEv F m ans (i + 1) names evs →
      LoopEv F m ans i (name :: names) (e ++ evs)

theorem LoopEv.setup {F : Int → SetFilter} {m : Manager} {ans : Nat → OpenAns} {i : Nat} {names : List String} {evs : List FdEv}
    (h : LoopEv F m ans i names evs) : ∀ fd c, .call fd c ∈ evs → IsSetup F fd c := by
  induction h with
  | nil => intro fd c hc; cases hc
  | cons hp _ ih =>
    intro fd c hc
    rcases List.mem_append.1 hc with hc | hc
    · exact hp.setup fd c hc
    · exact ih fd c hc

theorem startLoop_ok {fc : Option (List Filter)} {num : Nat} (hf : GoodFilters fc num) (m : Manager)
    (hl : m.required.length ≤ 255) (ans : Nat → OpenAns) (fuel i : Nat) (hi : i ≤ m.required.length)
    (hfu : m.required.length - i < fuel) (ifs : List Iface) (evs : List FdEv) :
    ∃ evs', m.startLoop fc num ans fuel i i ifs evs =
        some (.ok (ifs ++ openedFrom m ans i (m.required.drop i), evs ++ evs')) ∧
      LoopEv (filterCall fc num) m ans i (m.required.drop i) evs' := by
  induction fuel generalizing i ifs evs with
  | zero => omega
  | succ fuel ih =>
    by_cases hlt : i < m.required.length
    · have hget : m.required[i]? = some m.required[i] := List.getElem?_eq_getElem hlt
      obtain ⟨r, e, h1, h2, h3⟩ := createInterface_ok hf m i m.required[i] (ans i)
      have hmod : (i + 1) % 2 ^ 8 = i + 1 := Nat.mod_eq_of_lt (by omega)
      rw [List.drop_eq_getElem_cons hlt]
      by_cases ho : Opens m m.required[i] (ans i)
      · obtain ⟨evs', g1, g2⟩ := ih (i + 1) (by omega) (by omega)
          (ifs ++ [Iface.mk' i m.required[i] (ans i).socket]) (evs ++ e)
        refine ⟨e ++ evs', ?_, .cons h3 g2⟩
        simp only [Manager.startLoop, hget, h1, h2.2 ho, ho, if_true, Option.toList, hmod, Bool.not_false, g1,
          openedFrom, List.append_assoc]
      · have hr : r.not = true := by
          cases hh : r.not with
          | true => rfl
          | false => exact absurd (h2.1 hh) ho
        obtain ⟨evs', g1, g2⟩ := ih (i + 1) (by omega) (by omega) ifs (evs ++ e)
        refine ⟨e ++ evs', ?_, .cons h3 g2⟩
        simp only [Manager.startLoop, hget, h1, hr, ho, if_false, hmod, Bool.not_true, Bool.false_eq_true, g1,
          openedFrom, List.append_assoc, List.nil_append]
    · have : m.required.drop i = [] := List.drop_eq_nil_of_le (by omega)
      refine ⟨[], ?_, ?_⟩
      · simp [Manager.startLoop, List.getElem?_eq_none (Nat.le_of_not_lt hlt), this, openedFrom]
      · rw [this]; exact .nil i

theorem startLoop_forever {fc : Option (List Filter)} {num : Nat} (hf : GoodFilters fc num) (m : Manager)
    (hl : 256 ≤ m.required.length) (ans : Nat → OpenAns) (fuel i k : Nat) (hi : i < 256) (ifs : List Iface)
    (evs : List FdEv) : m.startLoop fc num ans fuel i k ifs evs = none := by
  induction fuel generalizing i k ifs evs with
  | zero => rfl
  | succ fuel ih =>
    have hget : m.required[i]? = some m.required[i] := List.getElem?_eq_getElem (by omega)
    obtain ⟨r, e, h1, -, -⟩ := createInterface_ok hf m i m.required[i] (ans k)
    simp only [Manager.startLoop, hget, h1]
    exact ih _ _ (Nat.mod_lt _ (by decide)) _ _

/-- What `startInterfaceGroup` does, for at most 255 required interfaces. -/
theorem start_ok {fc : Option (List Filter)} {num : Nat} (hf : GoodFilters fc num) (m : Manager)
    (hl : m.required.length ≤ 255) (ans : Nat → OpenAns) (out : Option Group) (fuel : Nat)
    (hfu : m.required.length < fuel) :
    ∃ evs ifs, ifs = openedFrom m ans 0 m.required ∧ LoopEv (filterCall fc num) m ans 0 m.required evs ∧
      m.startInterfaceGroup fc num out ans fuel = some (.ok (
        if ifs = [] then (.NotFound, out, evs)
        else (if m.required.length ≤ ifs.length then .Success else .SuccessPartial, some ⟨ifs⟩, evs ++ closeGroup out))) := by
  obtain ⟨evs, h1, h2⟩ := startLoop_ok hf m hl ans fuel 0 (by omega) (by omega) [] []
  simp only [List.drop_zero, List.nil_append] at h1 h2
  refine ⟨evs, _, rfl, h2, ?_⟩
  simp only [Manager.startInterfaceGroup, h1, List.length_eq_zero_iff]
  by_cases he : openedFrom m ans 0 m.required = []
  · rw [if_pos he, if_pos he]
  · rw [if_neg he, if_neg he]
    have : (m.required.length ≤ min 255 (openedFrom m ans 0 m.required).length) ↔
        m.required.length ≤ (openedFrom m ans 0 m.required).length := by omega
    simp only [Group.getInterfaceCount, ge_iff_le, this]

theorem openedFrom_length (m : Manager) (ans : Nat → OpenAns) (i : Nat) (names : List String) :
    (openedFrom m ans i names).length ≤ names.length ∧
    ((openedFrom m ans i names).length = names.length ↔
      ∀ j (h : j < names.length), Opens m names[j] (ans (i + j))) ∧
    (openedFrom m ans i names = [] ↔ ∀ j (h : j < names.length), ¬ Opens m names[j] (ans (i + j))) := by
  induction names generalizing i with
  | nil => simp [openedFrom]
  | cons n ns ih =>
    obtain ⟨h1, h2, h3⟩ := ih (i + 1)
    have split : ∀ (P : String → OpenAns → Prop), (∀ j (h : j < (n :: ns).length), P (n :: ns)[j] (ans (i + j))) ↔
        P n (ans i) ∧ ∀ j (h : j < ns.length), P ns[j] (ans (i + 1 + j)) := by
      intro P
      constructor
      · intro h
        refine ⟨h 0 (by simp), fun j hj => ?_⟩
        have := h (j + 1) (by simp; omega)
        rw [show i + (j + 1) = i + 1 + j by omega] at this
        simpa using this
      · rintro ⟨h0, hs⟩ j hj
        cases j with
        | zero => exact h0
        | succ j =>
          have := hs j (by simp at hj; omega)
          rw [show i + 1 + j = i + (j + 1) by omega] at this
          simpa using this
    rw [split (fun n a => Opens m n a), split (fun n a => ¬ Opens m n a)]
    by_cases ho : Opens m n (ans i)
    · simp only [openedFrom, ho, if_true, List.length_append, List.length_cons, List.length_nil, true_and,
        not_true_eq_false, false_and, iff_false]
      refine ⟨by omega, ?_, by simp⟩
      rw [← h2]; omega
    · simp only [openedFrom, ho, if_false, List.nil_append, List.length_cons, false_and, iff_false,
        not_false_eq_true, true_and]
      refine ⟨by omega, by omega, h3⟩

theorem openedFrom_mem (m : Manager) (ans : Nat → OpenAns) (i : Nat) (names : List String) (s : Iface)
    (h : s ∈ openedFrom m ans i names) :
    ∃ j, ∃ hj : j < names.length, s = Iface.mk' (i + j) names[j] (ans (i + j)).socket ∧ Opens m names[j] (ans (i + j)) := by
  induction names generalizing i with
  | nil => simp [openedFrom] at h
  | cons n ns ih =>
    simp only [openedFrom, List.mem_append] at h
    rcases h with h | h
    · split at h
      · rename_i ho
        simp only [List.mem_singleton] at h
        exact ⟨0, by simp, h, ho⟩
      · simp at h
    · obtain ⟨j, hj, h1, h2⟩ := ih (i + 1) h
      rw [show i + 1 + j = i + (j + 1) by omega] at h1 h2
      exact ⟨j + 1, by simp; omega, h1, h2⟩

/-! ## Descriptors -/

theorem openAfter_append (o : List Int) (a b : List FdEv) : openAfter o (a ++ b) = openAfter (openAfter o a) b := by
  induction a generalizing o with
  | nil => rfl
  | cons e t ih => cases e <;> simp [openAfter, ih]

theorem fresh_append (o : List Int) (a b : List FdEv) : Fresh o (a ++ b) ↔ Fresh o a ∧ Fresh (openAfter o a) b := by
  induction a generalizing o with
  | nil => simp [Fresh, openAfter]
  | cons e t ih => cases e <;> simp [Fresh, openAfter, ih, and_assoc]

theorem noBadClose_append (o : List Int) (a b : List FdEv) :
    NoBadClose o (a ++ b) ↔ NoBadClose o a ∧ NoBadClose (openAfter o a) b := by
  induction a generalizing o with
  | nil => simp [NoBadClose, openAfter]
  | cons e t ih => cases e <;> simp [NoBadClose, openAfter, ih, and_assoc]

/-- Calls do not change what is open. -/
theorem openAfter_calls (fd : Int) (cs : List SockCall) (o : List Int) : openAfter o (cs.map (.call fd)) = o := by
  induction cs with
  | nil => rfl
  | cons c cs ih => simp [openAfter, ih]

theorem noBadClose_calls (fd : Int) (cs : List SockCall) (o : List Int) (h : fd ∈ o) : NoBadClose o (cs.map (.call fd)) := by
  induction cs with
  | nil => trivial
  | cons c cs ih => exact ⟨h, ih⟩

/-- The loop: it closes nothing wrongly, and afterwards the kept descriptors (and possibly 0) are open in addition. -/
theorem loop_fds {F : Int → SetFilter} (m : Manager) (ans : Nat → OpenAns) (i : Nat) (names : List String) (evs : List FdEv)
    (h : LoopEv F m ans i names evs) (o : List Int) (ho : o.Nodup) (hfr : Fresh o evs) :
    NoBadClose o evs ∧ (openAfter o evs).Nodup ∧
      ((openedFrom m ans i names).map Iface.fd).Nodup ∧
      (∀ fd ∈ (openedFrom m ans i names).map Iface.fd, fd ∉ o ∧ fd ≠ 0) ∧
      ∃ lost : Prop, ∀ fd, fd ∈ openAfter o evs ↔
        fd ∈ o ∨ fd ∈ (openedFrom m ans i names).map Iface.fd ∨ (lost ∧ fd = 0) := by
  induction h generalizing o with
  | nil i => exact ⟨trivial, ho, by simp [openedFrom], by simp [openedFrom], False, by simp [openedFrom, openAfter]⟩
  | @cons i name names e evs hp hl ih =>
    rw [fresh_append] at hfr
    obtain ⟨hf1, hf2⟩ := hfr
    cases hp with
    | none hno =>
      obtain ⟨a, b, c, d, l, f⟩ := ih o ho hf2
      simp only [List.nil_append, openedFrom, hno, if_false]
      exact ⟨a, b, c, d, l, f⟩
    | closed fd cs hno _ =>
      have hoa : openAfter o (.opened fd :: (cs.map (.call fd) ++ [.closed fd])) = o := by
        simp [openAfter, openAfter_append, openAfter_calls]
      rw [hoa] at hf2
      obtain ⟨a, b, c, d, l, f⟩ := ih o ho hf2
      rw [noBadClose_append, openAfter_append, hoa]
      simp only [openedFrom, hno, if_false, List.nil_append]
      refine ⟨⟨?_, a⟩, b, c, d, l, f⟩
      simp only [NoBadClose, noBadClose_append, openAfter_calls, List.mem_cons, true_or, and_true]
      exact noBadClose_calls fd cs _ (List.mem_cons_self ..)
    | kept hop =>
      have hoa : ∀ cs : List SockCall, openAfter o (.opened (ans i).socket :: cs.map (.call (ans i).socket)) =
          (ans i).socket :: o := fun cs => openAfter_calls _ cs _
      rw [hoa] at hf2
      have hni : (ans i).socket ∉ o := hf1.1
      obtain ⟨a, b, c, d, l, f⟩ := ih ((ans i).socket :: o) (List.nodup_cons.2 ⟨hni, ho⟩) hf2
      have hof : openedFrom m ans i (name :: names) =
          Iface.mk' i name (ans i).socket :: openedFrom m ans (i + 1) names := by simp [openedFrom, hop]
      rw [noBadClose_append, openAfter_append, hoa, hof, List.map_cons]
      refine ⟨⟨noBadClose_calls _ _ _ (List.mem_cons_self ..), a⟩, b, ?_, ?_, l, ?_⟩
      · refine List.nodup_cons.2 ⟨?_, c⟩
        intro hm
        exact (d _ hm).1 (List.mem_cons_self ..)
      · intro fd hfd
        rcases List.mem_cons.1 hfd with rfl | hfd
        · exact ⟨hni, hop.2⟩
        · exact ⟨fun h => (d fd hfd).1 (List.mem_cons_of_mem _ h), (d fd hfd).2⟩
      · intro fd
        rw [f]
        simp only [List.mem_cons, Iface.mk']
        grind
    | lost cs hno hz _ =>
      have hoa : openAfter o (.opened 0 :: cs.map (.call 0)) = 0 :: o := openAfter_calls _ cs _
      rw [hoa] at hf2
      obtain ⟨a, b, c, d, l, f⟩ := ih (0 :: o) (List.nodup_cons.2 ⟨hf1.1, ho⟩) hf2
      rw [noBadClose_append, openAfter_append, hoa]
      simp only [openedFrom, hno, if_false, List.nil_append]
      refine ⟨⟨noBadClose_calls _ _ _ (List.mem_cons_self ..), a⟩, b, c, ?_, True, ?_⟩
      · intro fd hfd
        exact ⟨fun h => (d fd hfd).1 (List.mem_cons_of_mem _ h), (d fd hfd).2⟩
      · intro fd
        rw [f]
        simp only [List.mem_cons]
        grind

/-- Closing a list of distinct open descriptors. -/
theorem close_fds (fds o : List Int) (ho : o.Nodup) (hf : fds.Nodup) (hs : ∀ fd ∈ fds, fd ∈ o) :
    NoBadClose o (fds.map .closed) ∧ (openAfter o (fds.map .closed)).Nodup ∧
      ∀ fd, fd ∈ openAfter o (fds.map .closed) ↔ fd ∈ o ∧ fd ∉ fds := by
  induction fds generalizing o with
  | nil => exact ⟨trivial, ho, by simp [openAfter]⟩
  | cons a t ih =>
    have hn := List.nodup_cons.1 hf
    obtain ⟨h1, h2, h3⟩ := ih (o.erase a) (ho.erase a) hn.2 (by
      intro fd hfd
      rw [ho.mem_erase_iff]
      exact ⟨fun h => hn.1 (h ▸ hfd), hs fd (List.mem_cons_of_mem _ hfd)⟩)
    refine ⟨⟨hs a (List.mem_cons_self ..), h1⟩, h2, ?_⟩
    intro fd
    simp only [List.map_cons, openAfter, h3, ho.mem_erase_iff, List.mem_cons]
    grind

theorem closeGroup_eq (g : Option Group) : closeGroup g = (owned g).map .closed := by
  cases g with
  | none => rfl
  | some g => simp [closeGroup, owned]

/-- The invariant between calls. -/
structure FdInv (o : List Int) (g : Option Group) : Prop where
  nodup : o.Nodup
  sub : ∀ fd ∈ owned g, fd ∈ o
  ownNodup : (owned g).Nodup
  nonzero : ∀ fd ∈ owned g, fd ≠ 0

/-- The calls whose filter arrays can be read. -/
def GoodOp : ManagerOp → Prop
  | .start fc num _ => GoodFilters fc num
  | .stop => True

theorem step_fds (m : Manager) (hl : m.required.length ≤ 255) (fuel : Nat) (hfu : m.required.length < fuel)
    (g : Option Group) (op : ManagerOp) (hop : GoodOp op) :
    ∃ g' evs, m.step fuel g op = some (.ok (g', evs)) ∧
      ∀ o, FdInv o g → Fresh o evs → NoBadClose o evs ∧ FdInv (openAfter o evs) g' ∧
        ∃ lost : Prop, ∀ fd, (fd ∈ openAfter o evs ∧ fd ∉ owned g') ↔ ((fd ∈ o ∧ fd ∉ owned g) ∨ (lost ∧ fd = 0)) := by
  cases op with
  | stop =>
    refine ⟨none, closeGroup g, rfl, ?_⟩
    intro o hi _
    rw [closeGroup_eq]
    obtain ⟨h1, h2, h3⟩ := close_fds (owned g) o hi.nodup hi.ownNodup hi.sub
    exact ⟨h1, ⟨h2, by simp [owned], by simp [owned], by simp [owned]⟩, False, fun fd => by rw [h3]; simp [show owned none = [] from rfl]⟩
  | start fc num ans =>
    obtain ⟨evs, ifs, hifs, hev, hst⟩ := start_ok hop m hl ans g fuel hfu
    by_cases he : ifs = []
    · rw [if_pos he] at hst
      refine ⟨g, evs, by simp only [Manager.step, hst], ?_⟩
      intro o hi hfr
      obtain ⟨a, b, c, d, l, f⟩ := loop_fds m ans 0 m.required evs hev o hi.nodup hfr
      rw [← hifs, he] at f
      refine ⟨a, ⟨b, fun fd h => (f fd).2 (.inl (hi.sub fd h)), hi.ownNodup, hi.nonzero⟩, l, ?_⟩
      intro fd
      have := hi.nonzero fd
      rw [f]
      simp only [List.map_nil, List.not_mem_nil, false_or]
      grind
    · rw [if_neg he] at hst
      refine ⟨some ⟨ifs⟩, evs ++ closeGroup g, by simp only [Manager.step, hst], ?_⟩
      intro o hi hfr
      rw [fresh_append] at hfr
      obtain ⟨a, b, c, d, l, f⟩ := loop_fds m ans 0 m.required evs hev o hi.nodup hfr.1
      rw [← hifs] at c d f
      obtain ⟨h1, h2, h3⟩ := close_fds (owned g) (openAfter o evs) b hi.ownNodup
        (fun fd h => (f fd).2 (.inl (hi.sub fd h)))
      rw [closeGroup_eq, noBadClose_append, openAfter_append]
      refine ⟨⟨a, h1⟩, ⟨h2, ?_, c, fun fd h => (d fd h).2⟩, l, ?_⟩
      · intro fd h
        rw [h3, f]
        exact ⟨.inr (.inl h), fun hh => (d fd h).1 (hi.sub fd hh)⟩
      · intro fd
        rw [h3, f]
        have := hi.nonzero fd
        have := d fd
        have : owned (some ⟨ifs⟩) = ifs.map Iface.fd := rfl
        rw [this]
        grind

theorem run_fds (m : Manager) (hl : m.required.length ≤ 255) (fuel : Nat) (hfu : m.required.length < fuel)
    (g : Option Group) (ops : List ManagerOp) (hop : ∀ op ∈ ops, GoodOp op) (evs0 : List FdEv) :
    ∃ g' evs, m.run fuel g evs0 ops = some (.ok (g', evs0 ++ evs)) ∧
      ∀ o, FdInv o g → Fresh o evs → NoBadClose o evs ∧ FdInv (openAfter o evs) g' ∧
        ∃ lost : Prop, ∀ fd, (fd ∈ openAfter o evs ∧ fd ∉ owned g') ↔ ((fd ∈ o ∧ fd ∉ owned g) ∨ (lost ∧ fd = 0)) := by
  induction ops generalizing g evs0 with
  | nil => exact ⟨g, [], by simp [Manager.run], fun o hi _ => ⟨trivial, hi, False, by simp [openAfter]⟩⟩
  | cons op ops ih =>
    obtain ⟨g1, e1, h1, k1⟩ := step_fds m hl fuel hfu g op (hop op (List.mem_cons_self ..))
    obtain ⟨g2, e2, h2, k2⟩ := ih g1 (fun o h => hop o (List.mem_cons_of_mem _ h)) (evs0 ++ e1)
    refine ⟨g2, e1 ++ e2, by simp only [Manager.run, h1, h2, List.append_assoc], ?_⟩
    intro o hi hfr
    rw [fresh_append] at hfr
    obtain ⟨a1, b1, l1, c1⟩ := k1 o hi hfr.1
    obtain ⟨a2, b2, l2, c2⟩ := k2 _ b1 hfr.2
    rw [noBadClose_append, openAfter_append]
    refine ⟨⟨a1, a2⟩, b2, l1 ∨ l2, ?_⟩
    intro fd
    rw [c2, c1]
    grind

end Uavcan.SocketCan
