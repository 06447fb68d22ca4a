import Verif.Spec.SocketKernel
import Verif.Lemmas.ExampleMain

namespace Uavcan.SocketCan
open Spec

/-- The descriptor an event is about. -/
def evFd : FdEv → Int
  | .opened x => x
  | .closed x => x
  | .call x _ => x

theorem step_other (fd : Int) (s : Sock) (e : FdEv) (h : evFd e ≠ fd) : Sock.step fd s (.prog e) = s := by
  cases e <;> exact if_neg h

/-- Events about other descriptors do not matter. -/
theorem steps_other (fd : Int) (evs : List FdEv) (h : ∀ e ∈ evs, evFd e ≠ fd) (s : Sock) :
    (evs.map KEv.prog).foldl (Sock.step fd) s = s := by
  induction evs with
  | nil => rfl
  | cons e t ih =>
    rw [List.map_cons, List.foldl_cons, step_other fd s e (h e (List.mem_cons_self ..))]
    exact ih fun e he => h e (List.mem_cons_of_mem _ he)

/-- Calls are appended. -/
theorem steps_calls (fd : Int) (cs : List SockCall) (s : Sock) :
    ((cs.map (FdEv.call fd)).map KEv.prog).foldl (Sock.step fd) s = { s with calls := s.calls ++ cs } := by
  induction cs generalizing s with
  | nil => simp
  | cons c cs ih =>
    rw [List.map_cons, List.map_cons, List.foldl_cons, ih]
    simp [Sock.step]

/-- The calls do not depend on what arrives. -/
theorem calls_prog (fd : Int) (es : List KEv) (s t : Sock) (h : s.calls = t.calls) :
    (es.foldl (Sock.step fd) s).calls = (((progOf es).map KEv.prog).foldl (Sock.step fd) t).calls := by
  induction es generalizing s t with
  | nil => exact h
  | cons e es ih =>
    cases e with
    | arrive x rx =>
      refine ih _ _ ?_
      simp only [Sock.step]
      split <;> exact h
    | prog e =>
      refine ih _ _ ?_
      cases e <;> simp only [Sock.step] <;> split <;> simp [h]

theorem calls_sockAfter (fd : Int) (es : List KEv) : (sockAfter fd es).calls = callsOf fd (progOf es) :=
  calls_prog fd es _ _ rfl

/-- While a descriptor is open, the loop does not touch it. -/
theorem loop_other {F : Int → SetFilter} {m : Manager} {ans : Nat → OpenAns} {i : Nat} {names : List String} {evs : List FdEv}
    (h : LoopEv F m ans i names evs) (o : List Int) (hf : Fresh o evs) (fd : Int) (hfd : fd ∈ o) :
    ∀ e ∈ evs, evFd e ≠ fd := by
  induction h generalizing o with
  | nil => intro e he; cases he
  | @cons i name names e evs hp hl ih =>
    rw [fresh_append] at hf
    obtain ⟨hf1, hf2⟩ := hf
    intro x hx
    rcases List.mem_append.1 hx with hx | hx
    · cases hp with
      | none => cases hx
      | kept =>
        have hne : (ans i).socket ≠ fd := fun h => hf1.1 (h ▸ hfd)
        rcases List.mem_cons.1 hx with rfl | hx
        · exact hne
        · obtain ⟨c, -, rfl⟩ := List.mem_map.1 hx; exact hne
      | closed fd' cs =>
        have hne : fd' ≠ fd := fun h => hf1.1 (h ▸ hfd)
        rcases List.mem_cons.1 hx with rfl | hx
        · exact hne
        · rcases List.mem_append.1 hx with hx | hx
          · obtain ⟨c, -, rfl⟩ := List.mem_map.1 hx; exact hne
          · rw [List.mem_singleton.1 hx]; exact hne
      | lost cs =>
        have hne : (0 : Int) ≠ fd := fun h => hf1.1 (h ▸ hfd)
        rcases List.mem_cons.1 hx with rfl | hx
        · exact hne
        · obtain ⟨c, -, rfl⟩ := List.mem_map.1 hx; exact hne
    · refine ih (openAfter o e) hf2 ?_ x hx
      cases hp with
      | none => exact hfd
      | kept => simp only [openAfter, openAfter_calls]; exact List.mem_cons_of_mem _ hfd
      | closed fd' cs => simp only [openAfter, openAfter_append, openAfter_calls, List.erase_cons_head]; exact hfd
      | lost cs => simp only [openAfter, openAfter_calls]; exact List.mem_cons_of_mem _ hfd

/-- The calls made on each interface that is kept. -/
theorem loop_calls {F : Int → SetFilter} {m : Manager} {ans : Nat → OpenAns} {i : Nat} {names : List String} {evs : List FdEv}
    (h : LoopEv F m ans i names evs) (o : List Int) (hf : Fresh o evs) :
    ∀ s ∈ openedFrom m ans i names, ∀ k,
      ((evs.map KEv.prog).foldl (Sock.step s.fd) k).calls =
        setupCalls m s.name (ans s.index) ++ [SockCall.filters (F s.fd)] := by
  induction h generalizing o with
  | nil => intro s hs; cases hs
  | @cons i name names e evs hp hl ih =>
    rw [fresh_append] at hf
    obtain ⟨hf1, hf2⟩ := hf
    intro s hs k
    rw [List.map_append, List.foldl_append]
    rw [openedFrom] at hs
    rcases List.mem_append.1 hs with hs | hs
    · split at hs
      · rename_i ho
        rw [List.mem_singleton.1 hs]
        cases hp with
        | none hno => exact absurd ho hno
        | closed _ _ hno => exact absurd ho hno
        | lost _ hno => exact absurd ho hno
        | kept =>
          rw [steps_other _ _ (loop_other hl _ hf2 _ ?_)]
          · show (((((setupCalls m name (ans i) ++ [SockCall.filters (F (ans i).socket)]).map (FdEv.call (ans i).socket)).map
              KEv.prog).foldl (Sock.step (ans i).socket) (Sock.step (ans i).socket k (.prog (.opened (ans i).socket))))).calls = _
            rw [steps_calls]
            simp [Sock.step, Iface.mk']
          · simp only [openAfter, openAfter_calls]
            exact List.mem_cons_self ..
      · cases hs
    · exact ih _ hf2 s hs _

theorem startInterfaceGroup_mono {m : Manager} {fc : Option (List Filter)} {num : Nat} {out : Option Group} {ans : Nat → OpenAns}
    {fuel : Nat} {x} (h : m.startInterfaceGroup fc num out ans fuel = some x) (d : Nat) :
    m.startInterfaceGroup fc num out ans (fuel + d) = some x := by
  cases hs : m.startLoop fc num ans fuel 0 0 [] [] with
  | none => simp only [Manager.startInterfaceGroup, hs] at h; cases h
  | some y =>
    unfold Manager.startInterfaceGroup at h ⊢
    rw [hs] at h
    rw [startLoop_mono hs d]
    exact h

/-- What a successful start leaves behind. -/
theorem start_success {fc : Option (List Filter)} {num : Nat} (hf : GoodFilters fc num) {m : Manager} {out : Option Group}
    {ans : Nat → OpenAns} {fuel : Nat} {r : Result} {g : Group} {evs : List FdEv}
    (h : m.startInterfaceGroup fc num out ans fuel = some (.ok (r, some g, evs))) (hs : r.isSuccess = true) :
    g.interfaces = openedFrom m ans 0 m.required ∧
      ∃ evs0, LoopEv (filterCall fc num) m ans 0 m.required evs0 ∧ evs = evs0 ++ closeGroup out := by
  rcases Nat.lt_or_ge 255 m.required.length with hl | hl
  · simp only [Manager.startInterfaceGroup, startLoop_forever hf m hl ans fuel 0 0 (by decide) [] []] at h
    cases h
  · obtain ⟨evs0, ifs, hifs, hev, hst⟩ := start_ok hf m hl ans out (fuel + (m.required.length + 1)) (by omega)
    rw [startInterfaceGroup_mono h _] at hst
    injection hst with hst; injection hst with hst
    split at hst
    · injection hst with h1 _; rw [h1] at hs; cases hs
    · injection hst with _ hst; injection hst with h1 h2
      injection h1 with h1
      exact ⟨by rw [h1]; exact hifs, evs0, hev, h2⟩

/-- The calls made on the interfaces of a started group. -/
theorem start_calls {fc : Option (List Filter)} {num : Nat} (hf : GoodFilters fc num) {m : Manager} {out : Option Group}
    {ans : Nat → OpenAns} {fuel : Nat} {r : Result} {g : Group} {evs : List FdEv}
    (h : m.startInterfaceGroup fc num out ans fuel = some (.ok (r, some g, evs))) (hs : r.isSuccess = true) (o : List Int)
    (ho : o.Nodup) (hsub : ∀ fd ∈ owned out, fd ∈ o) (hfr : Fresh o evs) (s : Iface) (hi : s ∈ g.interfaces) :
    Opens m s.name (ans s.index) ∧ s.fd = (ans s.index).socket ∧
    callsOf s.fd evs = setupCalls m s.name (ans s.index) ++ [SockCall.filters (filterCall fc num s.fd)] ∧
    ∀ c, .call s.fd (.filters c) ∈ evs → c = filterCall fc num s.fd := by
  obtain ⟨hg, evs0, hev, he⟩ := start_success hf h hs
  subst he
  rw [hg] at hi
  rw [fresh_append] at hfr
  obtain ⟨-, -, -, hd, -⟩ := loop_fds m ans 0 m.required evs0 hev o ho hfr.1
  have hno := (hd s.fd (List.mem_map_of_mem hi)).1
  refine ⟨?_, ?_, ?_, ?_⟩
  · obtain ⟨j, hj, rfl, hop⟩ := openedFrom_mem m ans 0 m.required s hi
    exact hop
  · obtain ⟨j, hj, rfl, hop⟩ := openedFrom_mem m ans 0 m.required s hi
    rfl
  · rw [callsOf, sockAfter, List.map_append, List.foldl_append, steps_other, loop_calls hev o hfr.1 s hi]
    intro e he
    rw [closeGroup_eq] at he
    obtain ⟨fd, hfd, rfl⟩ := List.mem_map.1 he
    intro hh
    exact hno (hh ▸ hsub fd hfd)
  · intro c hc
    rcases List.mem_append.1 hc with hc | hc
    · exact hev.setup _ _ hc
    · rw [closeGroup_eq] at hc
      obtain ⟨fd, -, hh⟩ := List.mem_map.1 hc
      cases hh

/-- A call counted for a descriptor was made. -/
theorem mem_callsOf (fd : Int) (evs : List FdEv) (k : Sock) (c : SockCall)
    (h : c ∈ ((evs.map KEv.prog).foldl (Sock.step fd) k).calls) : c ∈ k.calls ∨ .call fd c ∈ evs := by
  induction evs generalizing k with
  | nil => exact .inl h
  | cons e t ih =>
    rcases ih _ h with h' | h'
    · cases e <;> simp only [Sock.step] at h' <;> split at h'
      · cases h'
      · exact .inl h'
      · cases h'
      · exact .inl h'
      · rename_i hh
        rcases List.mem_append.1 h' with h' | h'
        · exact .inl h'
        · rw [List.mem_singleton.1 h', hh]; exact .inr (List.mem_cons_self ..)
      · exact .inl h'
    · exact .inr (List.mem_cons_of_mem _ h')

theorem filterSet_mem {s : Sock} {c : SetFilter} (h : s.filterSet = some c) : .filters c ∈ s.calls := by
  have := List.mem_of_getLast? h
  obtain ⟨d, hd, he⟩ := List.mem_filterMap.1 this
  cases d <;> simp [filterOf] at he
  rw [← he]; exact hd

theorem sockAfter_snoc (fd : Int) (es : List KEv) (e : KEv) : sockAfter fd (es ++ [e]) = Sock.step fd (sockAfter fd es) e := by
  simp [sockAfter]

theorem progOf_append (a b : List KEv) : progOf (a ++ b) = progOf a ++ progOf b := by simp [progOf]

/-- Messages in the queue of a socket on which only the filters `c` are ever set were let through by them, or arrived before
they were set. -/
theorem queue_ok (fd : Int) (c : SetFilter) (es : List KEv) (hc : ∀ c', .call fd (.filters c') ∈ progOf es → c' = c) (q : List KEv) :
    ∀ rx ∈ (sockAfter fd es).queue, IsErr rx = false → Receives c rx ∨
      ∃ p x t, es ++ q = p ++ .arrive x rx :: t ∧ (sockAfter fd p).boundTo = some x ∧ (sockAfter fd p).filterSet = none := by
  induction hn : es.length generalizing es q with
  | zero => intro rx h; rw [List.length_eq_zero_iff.1 hn] at h; cases h
  | succ n ih =>
    have hne : es ≠ [] := by rintro rfl; cases hn
    obtain ⟨es', e, rfl⟩ : ∃ es' e, es = es' ++ [e] := ⟨es.dropLast, es.getLast hne, (List.dropLast_concat_getLast hne).symm⟩
    have hn' : es'.length = n := by simpa using hn
    have ih' := ih es' (fun c' h => hc c' (by rw [progOf_append]; exact List.mem_append_left _ h)) (e :: q) hn'
    intro rx hrx herr
    rw [sockAfter_snoc] at hrx
    rw [List.append_assoc, List.singleton_append]
    cases e with
    | prog e =>
      refine ih' rx ?_ herr
      cases e <;> simp only [Sock.step] at hrx <;> split at hrx <;> first | exact hrx | cases hrx
    | arrive x y =>
      simp only [Sock.step] at hrx
      split at hrx
      · rename_i hacc
        rcases List.mem_append.1 hrx with hrx | hrx
        · exact ih' rx hrx herr
        · rw [List.mem_singleton] at hrx
          subst hrx
          obtain ⟨hb, ha⟩ := hacc
          rw [herr] at ha
          cases hfs : (sockAfter fd es').filterSet with
          | none => exact .inr ⟨es', x, q, rfl, hb, hfs⟩
          | some c' =>
            rw [hfs] at ha
            have hm : .filters c' ∈ callsOf fd (progOf es') := calls_sockAfter fd es' ▸ filterSet_mem hfs
            rcases mem_callsOf fd _ _ _ hm with h | h
            · cases h
            · rw [hc c' (by rw [progOf_append]; exact List.mem_append_left _ h)] at ha
              exact .inl ha
      · exact ih' rx hrx herr

theorem boundTo_setup {m : Manager} {name : String} {a : OpenAns} {c : SetFilter} {s : Sock}
    (h : s.calls = setupCalls m name a ++ [SockCall.filters c]) : s.boundTo = some a.ifindex ∧ s.filterSet = some c := by
  rw [Sock.boundTo, Sock.filterSet, h, setupCalls]
  cases m.enable_can_fd <;> cases m.receive_own <;> exact ⟨rfl, rfl⟩

/-- Setting filters, one call after the other. -/
theorem reconf_calls (fd : Int) (calls : List SetFilter) (k : Sock) :
    (((calls.map fun a => FdEv.call a.fd (.filters a)).map KEv.prog).foldl (Sock.step fd) k).calls =
      k.calls ++ (calls.filter fun a => a.fd = fd).map .filters := by
  induction calls generalizing k with
  | nil => simp
  | cons a t ih =>
    rw [List.map_cons, List.map_cons, List.foldl_cons, ih]
    by_cases h : a.fd = fd <;> simp [Sock.step, h]

end Uavcan.SocketCan
