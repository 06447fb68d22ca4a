import Verif.Lemmas.GroupThreads

/-!
# C129: threads may share an interface group if they keep apart
-/

namespace Uavcan.GroupThreads
open Spec SocketCan Can Time

theorem apart_bounds (abs : Nat → Int → Outcome Int) (fds : List Int) (cs : List Client) (h : KeepApart cs) :
    ∃ owner waiter, Bounds (ownedBy owner waiter) (ownedBy owner waiter) (cs.map fun c => c.prog abs fds []) := by
  obtain ⟨owner, waiter, h⟩ := h
  refine ⟨owner, waiter, fun t p hp => ?_, fun t u _ _ hne l hl => ⟨owned_apart _ _ _ _ hne l hl, owned_apart _ _ _ _ hne l hl⟩⟩
  rw [List.getElem?_map] at hp
  cases hc : cs[t]? with
  | none => rw [hc] at hp; cases hp
  | some c =>
    rw [hc] at hp
    cases hp
    exact client_stays abs fds owner waiter t c [] (h t c hc)

theorem allCalls_and {P Q R : Call → Prop} {c : Client} (hp : AllCalls P c) (hq : AllCalls Q c) (h : ∀ x, P x → Q x → R x) : AllCalls R c := by
  induction c with
  | stop => exact trivial
  | call c next ih => exact ⟨h c hp.1 hq.1, fun a => ih a (hp.2 a) (hq.2 a)⟩

theorem alone_bounds (abs : Nat → Int → Outcome Int) (fds : List Int) (cs : List Client) (h : KeepApart cs) (t k : Nat)
    (hk : ∀ u d, cs[u]? = some d → u ≠ t → AllCalls (fun call => forInterface call ≠ some k) d) :
    ∃ owner waiter, owner k = t ∧ Bounds (ownedBy owner waiter) (ownedBy owner waiter) (cs.map fun c => c.prog abs fds []) := by
  obtain ⟨owner, waiter, h⟩ := h
  have h' : ∀ (u : Nat) (c : Client), cs[u]? = some c →
      AllCalls (fun call => (∀ j, forInterface call = some j → (if j = k then t else owner j) = u) ∧ (isSelect call = true → waiter = u)) c := by
    intro u c hc
    by_cases e : u = t
    · subst e
      refine allCalls_and (h u c hc) (h u c hc) fun x hx _ => ⟨fun j hj => ?_, hx.2⟩
      split
      · rfl
      · exact hx.1 j hj
    · refine allCalls_and (h u c hc) (hk u c hc e) fun x hx hno => ⟨fun j hj => ?_, hx.2⟩
      split
      · rename_i ej; subst ej; exact absurd hj hno
      · exact hx.1 j hj
  refine ⟨fun j => if j = k then t else owner j, waiter, if_pos rfl, fun u p hp => ?_, fun t u _ _ hne l hl =>
    ⟨owned_apart _ _ _ _ hne l hl, owned_apart _ _ _ _ hne l hl⟩⟩
  rw [List.getElem?_map] at hp
  cases hc : cs[u]? with
  | none => rw [hc] at hp; cases hp
  | some c =>
    rw [hc] at hp
    cases hp
    exact client_stays abs fds _ waiter u c [] (h' u c hc)

/-- C129: threads that keep apart never race, whatever the schedule and whatever the kernel answers. -/
theorem C129_no_race (abs : Nat → Int → Outcome Int) (fds : List Int) (cs : List Client) (h : KeepApart cs) (m : Mem) (sched : List Nat) :
    ¬ Race (threads m (cs.map fun c => c.prog abs fds []) sched).2 := by
  obtain ⟨owner, waiter, hb⟩ := apart_bounds abs fds cs h
  exact (threads_inv sched m _ hb).1.no_race

/-- C129: a thread that has come to its end has got the answers it would have got alone with the group (or has done what is undefined even so), and the
interfaces it uses are as it would have left them. -/
theorem C129_undisturbed (abs : Nat → Int → Outcome Int) (g : Group) (cs : List Client) (h : KeepApart cs) (m : Mem) (hm : MemHolds m g) (sched : List Nat)
    (t : Nat) (c : Client) (hc : cs[t]? = some c) (r : Outcome (List Ans))
    (hr : (threads m (cs.map fun c => c.prog abs (g.interfaces.map (·.fd)) []) sched).2[t]? = some (.done r)) :
    match alone abs g c [] with
    | .ub u => r = .ub u
    | .ok a => r = .ok a.1 ∧ ∀ k i, a.2.interfaces[k]? = some i → (∀ u d, cs[u]? = some d → u ≠ t → AllCalls (fun call => forInterface call ≠ some k) d) →
        MemHoldsAt (threads m (cs.map fun c => c.prog abs (g.interfaces.map (·.fd)) []) sched).1 k i := by
  have ht : (cs.map fun c => c.prog abs (g.interfaces.map (·.fd)) [])[t]? = some (c.prog abs (g.interfaces.map (·.fd)) []) := by rw [List.getElem?_map, hc]; rfl
  have hrun := client_run abs c g m [] hm
  obtain ⟨owner, waiter, hb⟩ := apart_bounds abs (g.interfaces.map (·.fd)) cs h
  have hi := (threads_inv sched m _ hb).2.2 t _ _ ht hr
  cases ha : alone abs g c [] with
  | ub u =>
    rw [ha] at hrun
    rw [hrun] at hi
    rcases hi with ⟨u', e1, e2⟩ | ⟨a, m', n', e1, _⟩
    · cases e1
      cases r with
      | ok a => exact nomatch (show Outcome.ok _ = Outcome.ub u from e2)
      | ub u' => cases (show Outcome.ub u' = Outcome.ub u from e2); rfl
    · cases e1
  | ok a =>
    rw [ha] at hrun
    obtain ⟨m', h1, h2⟩ := hrun
    rw [h1] at hi
    have hra : r = .ok a.1 := by
      rcases hi with ⟨u', e1, _⟩ | ⟨b, m'', n', e1, e2, _⟩
      · cases e1
      · cases e1
        cases r with
        | ok x => cases (show Outcome.ok (x, _) = Outcome.ok _ from e2); rfl
        | ub u' => exact nomatch (show Outcome.ub u' = Outcome.ok _ from e2)
    refine ⟨hra, fun k i hk hno => ?_⟩
    obtain ⟨owner, waiter, hown, hb⟩ := alone_bounds abs (g.interfaces.map (·.fd)) cs h t k hno
    have hi := (threads_inv sched m _ hb).2.2 t _ _ ht hr
    rw [h1, hra] at hi
    rcases hi with ⟨u', e1, _⟩ | ⟨b, m'', n', e1, e2, e3⟩
    · cases e1
    · cases e1
      cases (show Outcome.ok (a.1, _) = Outcome.ok (a.1, n') from e2)
      have hki := h2 k i hk
      exact ⟨(e3 (.stats k) (.inl hown)).symm.trans hki.1, fun j hj => (e3 (.buf k j) (.inl hown)).symm.trans (hki.2 j hj)⟩

/-- C129: every schedule can be continued so that all threads come to their ends. -/
theorem C129_all_end (abs : Nat → Int → Outcome Int) (fds : List Int) (cs : List Client) (m : Mem) (sched : List Nat) :
    ∃ more, ∀ p ∈ (threads m (cs.map fun c => c.prog abs fds []) (sched ++ more)).2, ∃ r, p = .done r := by
  have key : ∀ (n : Nat) (m : Mem) (ps : List (Prog (List Ans))), n ≤ ps.length →
      ∃ more, (threads m ps more).2.length = ps.length ∧ ∀ t p, t < n → (threads m ps more).2[t]? = some p → ∃ r, p = .done r := by
    intro n m ps
    induction n with
    | zero => exact fun _ => ⟨[], rfl, fun t p h => absurd h (by omega)⟩
    | succ n ih =>
      intro hn
      obtain ⟨more, hl, hd⟩ := ih (by omega)
      have hlt : n < (threads m ps more).2.length := by omega
      obtain ⟨x, m', r, e⟩ := ends_alone _ (threads m ps more).1 (threads m ps more).2 n (List.getElem?_eq_getElem hlt)
      refine ⟨more ++ List.replicate x n, ?_, fun t p ht hp => ?_⟩
      · rw [threads_append, e, List.length_set, hl]
      · rw [threads_append, e] at hp
        by_cases hne : t = n
        · subst hne
          rw [List.getElem?_set_self hlt] at hp
          cases hp; exact ⟨r, rfl⟩
        · rw [List.getElem?_set_ne (Ne.symm hne)] at hp
          exact hd t p (by omega) hp
  obtain ⟨more, hl, hd⟩ := key _ (threads m (cs.map fun c => c.prog abs fds []) sched).1 (threads m (cs.map fun c => c.prog abs fds []) sched).2 (Nat.le_refl _)
  refine ⟨more, fun p hp => ?_⟩
  rw [threads_append] at hp
  obtain ⟨t, ht⟩ := List.getElem?_of_mem hp
  exact hd t p (by rw [← hl]; exact (List.getElem?_eq_some_iff.1 ht).1) ht

/-- C129: which pairs of calls may race. Two calls that are defined, made by two threads at once, can come to a data race exactly if both send or receive on
the same interface, or one receives and the other looks for messages or copies the statistics there, or both wait with `select`. -/
theorem C129_race_iff (abs : Nat → Int → Outcome Int) (g : Group) (m : Mem) (hm : MemHolds m g) (c d : Call) (rc rd : Ans × Group)
    (hc : groupAnswer abs g c = .ok rc) (hd : groupAnswer abs g d = .ok rd)
    (hvc : ∀ j buf out ans, c = .read j buf out ans → ValidRecv ans) (hvd : ∀ j buf out ans, d = .read j buf out ans → ValidRecv ans) :
    (∃ sched, Race (threads m [c.prog abs (g.interfaces.map (·.fd)), d.prog abs (g.interfaces.map (·.fd))] sched).2) ↔
      Disturb (kindOf g.interfaces.length c) (kindOf g.interfaces.length d) := by
  have hn : g.interfaces.length = (g.interfaces.map (·.fd)).length := by simp
  have hrun : ∀ c rc, groupAnswer abs g c = .ok rc → ∃ m', (c.prog abs (g.interfaces.map (·.fd))).run m = .ok (rc.1, m') := by
    intro c rc hc
    have := call_run abs g c m hm
    rw [hc] at this
    obtain ⟨m', h1, _⟩ := this
    exact ⟨m', h1⟩
  obtain ⟨mc, hc⟩ := hrun c rc hc
  obtain ⟨md, hd⟩ := hrun d rd hd
  rw [hn]
  generalize g.interfaces.map (·.fd) = fds at *
  constructor
  · rintro ⟨sched, hr⟩
    refine Classical.byContradiction fun hno => ?_
    let K : Nat → CallKind := fun t => if t = 0 then kindOf fds.length c else kindOf fds.length d
    have hb : Bounds (fun t => readsOf (K t)) (fun t => writesOf (K t)) [c.prog abs fds, d.prog abs fds] := by
      refine ⟨fun t p hp => ?_, fun t u ht hu hne l hl => ?_⟩
      · match t with
        | 0 => cases hp; exact call_stays abs fds c
        | 1 => cases hp; exact call_stays abs fds d
        | t + 2 => cases hp
      · refine footprints_apart ?_ l hl
        have ht : t < 2 := ht
        have hu : u < 2 := hu
        by_cases e : t = 0
        · rw [show K t = kindOf fds.length c from if_pos e, show K u = kindOf fds.length d from if_neg (by omega)]; exact hno
        · rw [show K t = kindOf fds.length d from if_neg e, show K u = kindOf fds.length c from if_pos (by omega)]
          exact fun h => hno (disturb_symm h)
    exact (threads_inv sched m _ hb).1.no_race hr
  · -- half of the cases; the others by symmetry
    have half : ∀ (c d : Call) (rc rd : Ans × Mem), (c.prog abs fds).run m = .ok rc → (d.prog abs fds).run m = .ok rd →
        (∀ j buf out ans, c = .read j buf out ans → ValidRecv ans) → (∀ j buf out ans, d = .read j buf out ans → ValidRecv ans) →
        Disturb (kindOf fds.length c) (kindOf fds.length d) → (∃ k, kindOf fds.length c = .receives k) ∨ kindOf fds.length c = kindOf fds.length d →
        ∃ sched, Race (threads m [c.prog abs fds, d.prog abs fds] sched).2 := by
      intro c d rc rd hc hd hvc hvd hdis hcase
      cases hkc : kindOf fds.length c with
      | nothing => rw [hkc] at hdis; cases kindOf fds.length d <;> exact hdis.elim
      | sends k =>
        rw [hkc] at hcase
        rcases hcase with ⟨_, h⟩ | h
        · cases h
        · obtain ⟨f, hf, v, p, hp⟩ := sends_starts abs fds c k hkc m rc hc
          obtain ⟨f', hf', _⟩ := sends_starts abs fds d k h.symm m rd hd
          refine ⟨[0], 0, 1, .put (.buf k 0) v p, .get (.buf k 0) f', .buf k 0, true, false, by decide, ?_, ?_, rfl, rfl, .inl rfl⟩
          · rw [hf, hf', ← hp]; rfl
          · rw [hf, hf']; rfl
      | looks k =>
        rw [hkc] at hcase hdis
        rcases hcase with ⟨_, h⟩ | h
        · cases h
        · rw [← h] at hdis; exact hdis.elim
      | copies k =>
        rw [hkc] at hcase hdis
        rcases hcase with ⟨_, h⟩ | h
        · cases h
        · rw [← h] at hdis; exact hdis.elim
      | waits =>
        rw [hkc] at hcase
        rcases hcase with ⟨_, h⟩ | h
        · cases h
        · obtain ⟨f, p, hp⟩ := waits_is abs fds c hkc
          obtain ⟨f', p', hp'⟩ := waits_is abs fds d h.symm
          refine ⟨[0], 0, 1, .put .polls (f (m .polls)) p, .get .polls fun cap => .put .polls (f' cap) p', .polls, true, false, by decide, ?_, ?_, rfl, rfl, .inl rfl⟩
          · rw [hp, hp']; rfl
          · rw [hp, hp']; rfl
      | receives k =>
        obtain ⟨f, cs, p, hp⟩ := receives_starts abs fds c k hkc hvc
        rw [hkc] at hdis
        cases hkd : kindOf fds.length d with
        | nothing => rw [hkd] at hdis; exact hdis.elim
        | waits => rw [hkd] at hdis; exact hdis.elim
        | sends j =>
          rw [hkd] at hdis
          cases (show k = j from hdis)
          obtain ⟨f', hf', _⟩ := sends_starts abs fds d k hkd m rd hd
          refine ⟨[0, 0], 0, 1, .put (.buf k 0) (f (m (.buf k 0))) (.put (.hdr k 0) cs p), .get (.buf k 0) f', .buf k 0, true, false, by decide, ?_, ?_, rfl, rfl, .inl rfl⟩
          · rw [hp, hf']; rfl
          · rw [hp, hf']; rfl
        | receives j =>
          rw [hkd] at hdis
          cases (show k = j from hdis)
          obtain ⟨f', cs', p', hp'⟩ := receives_starts abs fds d k hkd hvd
          refine ⟨[0, 0, 1], 0, 1, .put (.buf k 0) (f (m (.buf k 0))) (.put (.hdr k 0) cs p), .get (.buf k 0) fun old => .put (.buf k 0) (f' old) (.put (.hdr k 0) cs' p'),
            .buf k 0, true, false, by decide, ?_, ?_, rfl, rfl, .inl rfl⟩
          · rw [hp, hp']; rfl
          · rw [hp, hp']; rfl
        | looks j =>
          rw [hkd] at hdis
          cases (show k = j from hdis)
          obtain ⟨f', hf'⟩ := looks_is abs fds d k hkd
          refine ⟨[0, 0, 0], 0, 1, .put (.hdr k 0) cs p, .get (.hdr k 0) f', .hdr k 0, true, false, by decide, ?_, ?_, rfl, rfl, .inl rfl⟩
          · rw [hp, hf']; rfl
          · rw [hp, hf']; rfl
        | copies j =>
          rw [hkd] at hdis
          cases (show k = j from hdis)
          obtain ⟨f', hf'⟩ := copies_is abs fds d k hkd
          obtain ⟨n, v, q, hq⟩ := receives_counts abs fds c k hkc m rc hc [c.prog abs fds, d.prog abs fds] 0 rfl
          refine ⟨List.replicate n 0, 0, 1, .put (.stats k) v q, .get (.stats k) f', .stats k, true, false, by decide, ?_, ?_, rfl, rfl, .inl rfl⟩
          · rw [hq]; rfl
          · rw [hq, ← hf']; rfl
    intro hdis
    by_cases h1 : (∃ k, kindOf fds.length c = .receives k) ∨ kindOf fds.length c = kindOf fds.length d
    · exact half c d _ _ hc hd hvc hvd hdis h1
    · have h2 : ∃ k, kindOf fds.length d = .receives k := by
        generalize kindOf fds.length c = a at *
        generalize kindOf fds.length d = b at *
        cases a <;> cases b <;> first | exact hdis.elim | exact ⟨_, rfl⟩ | exact absurd (.inl ⟨_, rfl⟩) h1 |
          exact absurd (.inr (by cases (hdis : _ = _); rfl)) h1 | exact absurd (.inr rfl) h1
      obtain ⟨sched, hr⟩ := half d c _ _ hd hc hvd hvc (disturb_symm hdis) (.inl h2)
      obtain ⟨m', p', q', e1, e2⟩ := swap_threads sched m (d.prog abs fds) (c.prog abs fds)
      rw [e1] at hr
      exact ⟨_, by rw [e2]; exact race_swap hr⟩

theorem write_one (k : Nat) (x : Vector FrameT FramesLen) : ∃ f : CanfdFrame → CanfdFrame, (∀ o, (f o).can_id = CAN_EFF_FLAG ||| (x[0].id &&& MaskExtID)) ∧
    writeP k x 1 ⟨1, 0⟩ = .get (.buf k 0) fun old => .put (.buf k 0) (f old) (.get (.hdr k 0) fun _ => .get (.buf k 0) fun g =>
      .put (.len k 0) 72 (.done (.ok (.wrote .Success 1 [g])))) := by
  have hok : ∀ old : CanfdFrame, ∃ v, copyBytes x[0].data.toList x[0].getDataLength 0 old.data = .ok v := by
    intro old
    have h64 := dlcToLength_le x[0].dlc
    obtain ⟨v, hv, _⟩ := copyBytes_ok (m := 64) x[0].data.toList x[0].getDataLength 0 old.data (by simp [Frame.getDataLength]; omega) (by simp [Frame.getDataLength]; omega)
    exact ⟨v, hv⟩
  obtain ⟨v, hv⟩ : ∃ v : CanfdFrame → Vector Byte 64, ∀ old, copyBytes x[0].data.toList x[0].getDataLength 0 old.data = .ok (v old) :=
    ⟨fun old => (hok old).choose, fun old => (hok old).choose_spec⟩
  refine ⟨fun old => { old with can_id := CAN_EFF_FLAG ||| (x[0].id &&& MaskExtID), len := BitVec.ofNat 8 x[0].getDLC, data := v old }, fun _ => rfl, ?_⟩
  unfold writeP
  rw [if_neg (by decide)]
  unfold fillP
  rw [dif_pos (show 0 < FramesLen by decide)]
  dsimp only [Prog.bind]
  congr 1
  funext old
  rw [hv old]
  rfl

/-- C129: keeping apart is needed. Two threads that write on the same interface may both be told `Success` although both gave the frame of the second to the
kernel, whatever their frames are: the frame of the first is never sent. -/
theorem C129_needed_write (abs : Nat → Int → Outcome Int) (fds : List Int) (k : Nat) (hk : k < fds.length) (m : Mem) (a b : Vector FrameT FramesLen) :
    ∃ sched f₀ f₁, (threads m [(Call.write k a 1 0 ⟨1, 0⟩).prog abs fds, (Call.write k b 1 0 ⟨1, 0⟩).prog abs fds] sched).2 =
        [.done (.ok (.wrote .Success 1 [f₀])), .done (.ok (.wrote .Success 1 [f₁]))] ∧
      f₀.can_id = CAN_EFF_FLAG ||| (b[0].id &&& MaskExtID) ∧ f₁.can_id = CAN_EFF_FLAG ||| (b[0].id &&& MaskExtID) := by
  obtain ⟨f, hf, ef⟩ := write_one k a
  obtain ⟨f', hf', ef'⟩ := write_one k b
  have e1 : (Call.write k a 1 0 ⟨1, 0⟩).prog abs fds = writeP k a 1 ⟨1, 0⟩ := if_pos hk
  have e2 : (Call.write k b 1 0 ⟨1, 0⟩).prog abs fds = writeP k b 1 ⟨1, 0⟩ := if_pos hk
  rw [e1, e2, ef, ef']
  refine ⟨[0, 0, 1, 1, 1, 1, 1, 0, 0, 0], f' (f (m (.buf k 0))), f' (f (m (.buf k 0))), ?_, hf' _, hf' _⟩
  simp [threads, step, Mem.set]

theorem read_one (k : Nat) (buf : Vector FrameT FramesLen) (msg : RxMsg) :
    readP k buf ⟨1, 0, [msg]⟩ = .get (.hdr k 0) fun _ => .get (.buf k 0) fun old => .put (.buf k 0) (storeMsg old msg) (.put (.hdr k 0) msg.cmsgs (.put (.len k 0) 72
      (.get (.hdr k 0) fun cs => .get (.buf k 0) fun b => .get (.stats k) fun st =>
        match readOne b cs { stats := st, out_frames := buf, out_frames_read := 0 } with
        | .ub u => .done (.ub u)
        | .ok s => .put (.stats k) s.stats (.get (.stats k) fun st =>
            .put (.stats k) { st with rx_total := st.rx_total + (BitVec.ofNat 32 s.out_frames_read).setWidth 64 }
              (.done (.ok (.got .Success s.out_frames s.out_frames_read))))))) := by
  unfold readP
  rw [if_neg (show ¬ (1 : Int) ≤ 0 by decide)]
  show (recvP k [msg] 0).bind _ = _
  unfold recvP
  rw [if_pos (show 0 < FramesLen by decide)]
  dsimp only [Prog.bind, recvP]
  congr 1; funext _; congr 1; funext old; congr 3
  show (loopP k 1 0 buf 0).bind _ = _
  unfold loopP
  rw [if_pos (show 0 < FramesLen by decide)]
  dsimp only [Prog.bind]
  congr 1; funext cs; congr 1; funext b; congr 1; funext st
  cases readOne b cs { stats := st, out_frames := buf, out_frames_read := 0 } <;> rfl

/-- C129: keeping apart is needed. A thread may be told that it received, from the bus, the frame another thread is about to send: whatever the frame, if its identifier
is not zero, and whatever was received in truth. -/
theorem C129_needed_read (abs : Nat → Int → Outcome Int) (fds : List Int) (k : Nat) (hk : k < fds.length) (m : Mem) (a buf : Vector FrameT FramesLen)
    (ha : canId29 a[0].id ≠ 0) (msg : RxMsg) :
    ∃ (sched : List Nat) (out : Vector FrameT FramesLen),
      (threads m [(Call.write k a 1 0 ⟨1, 0⟩).prog abs fds, (Call.read k buf 0 ⟨1, 0, [msg]⟩).prog abs fds] sched).2[1]? =
        some (.done (.ok (.got .Success out 1))) ∧ canId29 out[0].id = canId29 a[0].id := by
  obtain ⟨f, hf, ef⟩ := write_one k a
  have e1 : (Call.write k a 1 0 ⟨1, 0⟩).prog abs fds = writeP k a 1 ⟨1, 0⟩ := if_pos hk
  have e2 : (Call.read k buf 0 ⟨1, 0, [msg]⟩).prog abs fds = readP k buf ⟨1, 0, [msg]⟩ := if_pos hk
  have hid : canId29 (CAN_EFF_FLAG ||| (a[0].id &&& MaskExtID)) = canId29 a[0].id ∧ (CAN_EFF_FLAG ||| (a[0].id &&& MaskExtID)).getLsbD 29 = false := by
    have := txId_props a[0].id
    refine ⟨this.2, ?_⟩
    have h := this.1
    simp only [IsExtData, Bool.and_eq_true, Bool.not_eq_true'] at h
    exact h.2
  let b := f (storeMsg (m (.buf k 0)) msg)
  have hd : Delivers b.can_id = true := by
    rw [show b.can_id = _ from hf _]
    simp only [Delivers, hid.1, hid.2]
    simpa using ha
  obtain ⟨s', h1, _, h3⟩ := readOne_ok b ⟨false, b, msg.cmsgs⟩ { stats := m (.stats k), out_frames := buf, out_frames_read := 0 } ⟨rfl, rfl, fun _ _ _ => rfl⟩
    (show (0 : Nat) < 4 by decide)
  rw [if_pos hd] at h3
  obtain ⟨h4, _, o, h5, h6, _⟩ := h3
  refine ⟨[1, 1, 1, 1, 1, 0, 0, 1, 1, 1, 1, 1, 1], s'.out_frames, ?_, ?_⟩
  · rw [e1, e2, ef, read_one]
    have h1 : readOne (f (storeMsg (m (.buf k 0)) msg)) msg.cmsgs { stats := m (.stats k), out_frames := buf, out_frames_read := 0 } = .ok s' := h1
    have h4 : s'.out_frames_read = 1 := h4
    simp [threads, step, Mem.set, h1, h4]
  · have h5 : s'.out_frames[0] = o := h5
    rw [h5, h6, show b.can_id = _ from hf _, hid.1]

/-- The memory of a group. -/
def memOf (g : Group) : Mem := fun l =>
  match l with
  | .buf k i => ((g.interfaces[k]?.map fun s => s.bufs.toList).getD []).getD i ⟨0, 0, 0, 0, 0, Vector.replicate 64 0⟩
  | .hdr _ _ => ([] : List Cmsg)
  | .len _ _ => (0 : Nat)
  | .stats k => (g.interfaces[k]?.map (·.stats)).getD ⟨0, 0, 0, 0, 0, 0, 0, 0, 0, 0, 0⟩
  | .polls => (0 : Nat)
  | .poll _ => ((0, 0, 0) : Int × BitVec 16 × BitVec 16)

/-- Every group has such a memory. -/
example (g : Group) : MemHolds (memOf g) g := by
  intro k i h
  refine ⟨by simp [memOf, h], fun j hj => ?_⟩
  have hj : j < FramesLen := hj
  simp [memOf, h, List.getD, hj]

/-- A thread that reads the interface 0 and waits, over and over `n` times, and another that writes on the interface 1 until it fails, copies the statistics,
and sets filters: they keep apart. -/
example (n : Nat) (frames : Vector FrameT FramesLen) (ans : SysAns) (r : RecvAns) (p : PollAns) :
    let reader : Client := Nat.rec .stop (fun _ c => .call (.select (Duration.fromMicrosecond 1000) true p) fun _ => .call (.read 0 frames 0 r) fun _ => c) n
    let writer : Client := Nat.rec .stop (fun _ c => .call (.write 1 frames 1 0 ans) fun a => match a with
      | .wrote .Success _ _ => c
      | _ => .call (.getStatistics 1) fun _ => .call (.reconfigureFilters none 0 (fun _ => 0) 10) fun _ => .stop) n
    KeepApart [reader, writer] := by
  intro reader writer
  refine ⟨fun k => k, 0, fun t c hc => ?_⟩
  match t with
  | 0 =>
    cases hc
    show AllCalls _ (Nat.rec _ _ n)
    induction n with
    | zero => exact trivial
    | succ n ih => exact ⟨⟨fun k hk => (by cases hk), fun _ => rfl⟩, fun _ => ⟨⟨fun k hk => (by cases hk; rfl), fun h => (by cases h)⟩, fun _ => ih⟩⟩
  | 1 =>
    cases hc
    show AllCalls _ (Nat.rec _ _ n)
    induction n with
    | zero => exact trivial
    | succ n ih =>
      refine ⟨⟨fun k hk => (by cases hk; rfl), fun h => (by cases h)⟩, fun a => ?_⟩
      dsimp only
      split
      · exact ih
      · exact ⟨⟨fun k hk => (by cases hk; rfl), fun h => (by cases h)⟩, fun _ => ⟨⟨fun k hk => (by cases hk), fun h => (by cases h)⟩, fun _ => trivial⟩⟩
  | t + 2 => cases hc

/-- The hypotheses of `C129_race_iff` and what it says: of two interfaces, a frame is sent on one and the other is read; or both on the same. -/
example (abs : Nat → Int → Outcome Int) (frames : Vector FrameT FramesLen) (m : Mem) (g : Group) (hg : g.interfaces.length = 2) (hm : MemHolds m g) :
    (∃ r, groupAnswer abs g (.write 0 frames 1 0 ⟨1, 0⟩) = .ok r) ∧
    Disturb (kindOf g.interfaces.length (.write 0 frames 1 0 ⟨1, 0⟩)) (kindOf g.interfaces.length (.read 0 frames 0 ⟨1, 0, []⟩)) ∧
    ¬ Disturb (kindOf g.interfaces.length (.write 0 frames 1 0 ⟨1, 0⟩)) (kindOf g.interfaces.length (.read 1 frames 0 ⟨1, 0, []⟩)) ∧
    ¬ Disturb (kindOf g.interfaces.length (.write 0 frames 1 0 ⟨1, 0⟩)) (kindOf g.interfaces.length (.getStatistics 0)) := by
  rw [hg]
  refine ⟨?_, (rfl : (0 : Nat) = 0), fun h => (nomatch (show (0 : Nat) = 1 from h)), fun h => h⟩
  have h1 := call_run abs g (.write 0 frames 1 0 ⟨1, 0⟩) m hm
  cases hc : groupAnswer abs g (.write 0 frames 1 0 ⟨1, 0⟩) with
  | ok r => exact ⟨r, rfl⟩
  | ub u =>
    rw [hc] at h1
    obtain ⟨f, _, ef⟩ := write_one 0 frames
    rw [show (Call.write 0 frames 1 0 ⟨1, 0⟩).prog abs (g.interfaces.map (·.fd)) = writeP 0 frames 1 ⟨1, 0⟩ from if_pos (by simp [hg]), ef] at h1
    exact nomatch (show Outcome.ok _ = Outcome.ub u from h1)

end Uavcan.GroupThreads
