import Verif.Spec.GroupThreads
import Verif.Lemmas.SocketCan

/-! # Lemmas for threads that share an interface group -/

namespace Uavcan.GroupThreads
open Spec SocketCan Can Time

theorem Mem.set_same (m : Mem) (l : Loc) (v : l.Val) : m.set l v l = v := by simp [Mem.set]
theorem Mem.set_ne (m : Mem) (l x : Loc) (v : l.Val) (h : x ≠ l) : m.set l v x = m x := by simp [Mem.set, h]

theorem run_bind {α β : Type} (p : Prog α) (f : α → Prog β) (m : Mem) :
    (p.bind f).run m = match p.run m with | .ok r => (f r.1).run r.2 | .ub u => .ub u := by
  induction p generalizing m with
  | done r => cases r <;> rfl
  | get l next ih => exact ih _ _
  | put l v next ih => exact ih _

/-- All accesses of a program are within bounds. -/
def Stays {α : Type} (R W : Loc → Prop) : Prog α → Prop
  | .done _ => True
  | .get l next => R l ∧ ∀ v, Stays R W (next v)
  | .put l _ next => W l ∧ Stays R W next

theorem Stays.bind {α β : Type} {R W : Loc → Prop} {p : Prog α} {f : α → Prog β} (h : Stays R W p) (hf : ∀ a, Stays R W (f a)) :
    Stays R W (p.bind f) := by
  induction p with
  | done r => cases r with
    | ok a => exact hf a
    | ub u => exact trivial
  | get l next ih => exact ⟨h.1, fun v => ih v (h.2 v)⟩
  | put l v next ih => exact ⟨h.1, ih h.2⟩

theorem Stays.mono {α : Type} {R W R' W' : Loc → Prop} {p : Prog α} (h : Stays R W p) (hr : ∀ l, R l → R' l) (hw : ∀ l, W l → W' l) :
    Stays R' W' p := by
  induction p with
  | done r => exact trivial
  | get l next ih => exact ⟨hr l h.1, fun v => ih v (h.2 v)⟩
  | put l v next ih => exact ⟨hw l h.1, ih h.2⟩

/-- What is not written stays as it was. -/
theorem run_frame {α : Type} {R W : Loc → Prop} {p : Prog α} (h : Stays R W p) {m m' : Mem} {a : α} (hr : p.run m = .ok (a, m')) (l : Loc)
    (hl : ¬ W l) : m' l = m l := by
  induction p generalizing m with
  | done r => cases r with
    | ok b => cases hr; rfl
    | ub u => exact nomatch (show Outcome.ub u = Outcome.ok _ from hr)
  | get l' next ih => exact ih _ (h.2 _) hr
  | put l' v next ih => exact (ih h.2 hr).trans (Mem.set_ne _ _ _ _ (by intro e; subst e; exact hl h.1))

/-- Memories that agree where a program reads and writes lead it to the same end. -/
theorem run_agree {α : Type} {R W : Loc → Prop} {p : Prog α} (h : Stays R W p) {m n : Mem} (hm : ∀ l, R l ∨ W l → m l = n l) :
    (∃ u, p.run m = .ub u ∧ p.run n = .ub u) ∨
    ∃ a m' n', p.run m = .ok (a, m') ∧ p.run n = .ok (a, n') ∧ ∀ l, R l ∨ W l → m' l = n' l := by
  induction p generalizing m n with
  | done r => cases r with
    | ok b => exact .inr ⟨b, m, n, rfl, rfl, hm⟩
    | ub u => exact .inl ⟨u, rfl, rfl⟩
  | get l' next ih =>
    have := ih (m l') (h.2 _) hm
    have e : (Prog.get l' next).run n = (next (m l')).run n := by rw [hm l' (.inl h.1)]; rfl
    rw [e]; exact this
  | put l' v next ih =>
    exact ih h.2 fun l hl => by
      by_cases e : l = l'
      · subst e; rw [Mem.set_same, Mem.set_same]
      · rw [Mem.set_ne _ _ _ _ e, Mem.set_ne _ _ _ _ e, hm l hl]

theorem step_run {α : Type} (p : Prog α) (m : Mem) : (step m p).2.run (step m p).1 = p.run m := by cases p <;> rfl

theorem step_stays {α : Type} {R W : Loc → Prop} {p : Prog α} (h : Stays R W p) (m : Mem) :
    Stays R W (step m p).2 ∧ ∀ l, ¬ W l → (step m p).1 l = m l := by
  cases p with
  | done r => exact ⟨trivial, fun _ _ => rfl⟩
  | get l next => exact ⟨h.2 _, fun _ _ => rfl⟩
  | put l v next => exact ⟨h.2, fun x hx => Mem.set_ne _ _ _ _ (fun e => hx (e ▸ h.1))⟩

/-- Each thread has bounds, and writes nothing another accesses. -/
structure Bounds {α : Type} (R W : Nat → Loc → Prop) (ps : List (Prog α)) : Prop where
  stays : ∀ (t : Nat) (p : Prog α), ps[t]? = some p → Stays (R t) (W t) p
  apart : ∀ (t u : Nat), t < ps.length → u < ps.length → t ≠ u → ∀ l, W t l → ¬ R u l ∧ ¬ W u l

theorem Bounds.step {α : Type} {R W : Nat → Loc → Prop} {ps : List (Prog α)} (h : Bounds R W ps) (m : Mem) (t : Nat) (p : Prog α) (hp : ps[t]? = some p) :
    Bounds R W (ps.set t (GroupThreads.step m p).2) := by
  refine ⟨fun u q hq => ?_, fun a b ha hb => h.apart a b (by simpa using ha) (by simpa using hb)⟩
  by_cases e : u = t
  · subst e
    rw [List.getElem?_set_self (List.getElem?_eq_some_iff.1 hp).1] at hq
    cases hq
    exact (step_stays (h.stays _ p hp) m).1
  · rw [List.getElem?_set_ne (Ne.symm e)] at hq
    exact h.stays u q hq

theorem Bounds.no_race {α : Type} {R W : Nat → Loc → Prop} {ps : List (Prog α)} (h : Bounds R W ps) : ¬ Race ps := by
  rintro ⟨t, u, p, q, l, a, b, hne, hp, hq, ha, hb, hab⟩
  have ht := (List.getElem?_eq_some_iff.1 hp).1
  have hu := (List.getElem?_eq_some_iff.1 hq).1
  have key : ∀ (t : Nat) (p : Prog α) (c : Bool), ps[t]? = some p → nextAccess p = some (l, c) → (R t l ∨ W t l) ∧ (c = true → W t l) := by
    intro t p c hp hc
    have hs := h.stays t p hp
    cases p with
    | done r => cases hc
    | get l' next => cases hc; exact ⟨.inl hs.1, fun e => nomatch e⟩
    | put l' v next => cases hc; exact ⟨.inr hs.1, fun _ => hs.1⟩
  have k1 := key t p a hp ha
  have k2 := key u q b hq hb
  rcases hab with e | e
  · have := h.apart t u ht hu hne l (k1.2 e)
    exact k2.1.elim this.1 this.2
  · have := h.apart u t hu ht (Ne.symm hne) l (k2.2 e)
    exact k1.1.elim this.1 this.2

/-- The steps of the others change nothing for a thread: run to its end from here it comes to the end it would have come to alone from the beginning. -/
theorem threads_inv {α : Type} {R W : Nat → Loc → Prop} (sched : List Nat) : ∀ (m : Mem) (ps : List (Prog α)), Bounds R W ps →
    Bounds R W (threads m ps sched).2 ∧ (threads m ps sched).2.length = ps.length ∧
    ∀ (t : Nat) (p q : Prog α), ps[t]? = some p → (threads m ps sched).2[t]? = some q →
      (∃ u, p.run m = .ub u ∧ q.run (threads m ps sched).1 = .ub u) ∨
      ∃ a m' n', p.run m = .ok (a, m') ∧ q.run (threads m ps sched).1 = .ok (a, n') ∧ ∀ l, R t l ∨ W t l → m' l = n' l := by
  induction sched with
  | nil =>
    intro m ps h
    refine ⟨h, rfl, fun t p q hp hq => ?_⟩
    have : p = q := by simpa [threads, hp] using hq
    subst this
    exact run_agree (h.stays t p hp) fun _ _ => rfl
  | cons t0 sched ih =>
    intro m ps h
    unfold threads
    split
    · exact ih m ps h
    · rename_i p0 hp0
      obtain ⟨b, hl, hr⟩ := ih (step m p0).1 (ps.set t0 (step m p0).2) (h.step m t0 p0 hp0)
      refine ⟨b, by simpa using hl, fun t p q hp hq => ?_⟩
      have ht0 := (List.getElem?_eq_some_iff.1 hp0).1
      have ht := (List.getElem?_eq_some_iff.1 hp).1
      by_cases e : t = t0
      · subst e
        have : p = p0 := by simpa [hp] using hp0
        subst this
        have := hr t (step m p).2 q (List.getElem?_set_self ht0) hq
        rw [step_run] at this
        exact this
      · have h1 := hr t p q (by rw [List.getElem?_set_ne (Ne.symm e)]; exact hp) hq
        have h2 := run_agree (h.stays t p hp) (m := m) (n := (step m p0).1) fun l hl =>
          ((step_stays (h.stays t0 p0 hp0) m).2 l fun hw => by
            have := h.apart t0 t ht0 ht (Ne.symm e) l hw
            exact hl.elim this.1 this.2).symm
        rcases h1 with ⟨u, a1, a2⟩ | ⟨a, m', n', a1, a2, a3⟩
        · rcases h2 with ⟨u', b1, b2⟩ | ⟨a', m'', n'', b1, b2, _⟩
          · rw [a1] at b2; cases b2; exact .inl ⟨u, b1, a2⟩
          · rw [a1] at b2; cases b2
        · rcases h2 with ⟨u', b1, b2⟩ | ⟨a', m'', n'', b1, b2, b3⟩
          · rw [a1] at b2; cases b2
          · rw [a1] at b2; cases b2
            exact .inr ⟨a, m'', n', b1, a2, fun l hl => (b3 l hl).trans (a3 l hl)⟩

/-- The locations of the interface `k`. -/
def Loc.of (k : Nat) : Loc → Prop
  | .buf j _ => j = k
  | .hdr j _ => j = k
  | .len j _ => j = k
  | .stats j => j = k
  | _ => False

/-- The locations `select` uses. -/
def Loc.polling : Loc → Prop
  | .polls => True
  | .poll _ => True
  | _ => False

/-- Where a call of a kind reads. -/
def readsOf : CallKind → Loc → Prop
  | .sends k, .hdr j _ => j = k
  | .sends k, .buf j _ => j = k
  | .receives k, l => l.of k
  | .looks k, .hdr j _ => j = k
  | .copies k, .stats j => j = k
  | .waits, l => l.polling
  | _, _ => False

/-- Where a call of a kind writes. -/
def writesOf : CallKind → Loc → Prop
  | .sends k, .buf j _ => j = k
  | .sends k, .len j _ => j = k
  | .receives k, l => l.of k
  | .waits, l => l.polling
  | _, _ => False

theorem fillP_stays (k : Nat) (frames : Vector FrameT FramesLen) (n i : Nat) : Stays (readsOf (.sends k)) (writesOf (.sends k)) (fillP k frames n i) := by
  induction n generalizing i with
  | zero => exact trivial
  | succ n ih =>
    unfold fillP
    split
    · refine ⟨rfl, fun v => ?_⟩
      dsimp only
      split
      · exact trivial
      · exact ⟨rfl, ih _⟩
    · exact trivial

theorem sendP_stays (k : Nat) (n i : Nat) (acc : List CanfdFrame) : Stays (readsOf (.sends k)) (writesOf (.sends k)) (sendP k n i acc) := by
  induction n generalizing i acc with
  | zero => exact trivial
  | succ n ih => exact ⟨rfl, fun _ => ⟨rfl, fun _ => ih _ _⟩⟩

theorem sentP_stays (k : Nat) (n i : Nat) : Stays (readsOf (.sends k)) (writesOf (.sends k)) (sentP k n i) := by
  induction n generalizing i with
  | zero => exact trivial
  | succ n ih => exact ⟨rfl, ih _⟩

theorem recvP_stays (k : Nat) (ms : List RxMsg) (i : Nat) : Stays (readsOf (.receives k)) (writesOf (.receives k)) (recvP k ms i) := by
  induction ms generalizing i with
  | nil => exact trivial
  | cons m ms ih =>
    unfold recvP
    split
    · exact ⟨rfl, fun _ => ⟨rfl, fun _ => ⟨rfl, rfl, rfl, ih _⟩⟩⟩
    · exact trivial

theorem loopP_stays (k : Nat) (n i : Nat) (out : Vector FrameT FramesLen) (c : Nat) : Stays (readsOf (.receives k)) (writesOf (.receives k)) (loopP k n i out c) := by
  induction n generalizing i out c with
  | zero => exact trivial
  | succ n ih =>
    unfold loopP
    split
    · refine ⟨rfl, fun _ => ⟨rfl, fun _ => ⟨rfl, fun _ => ?_⟩⟩⟩
      dsimp only
      split
      · exact trivial
      · exact ⟨rfl, ih _ _ _⟩
    · exact trivial

theorem pollsP_stays (ev : BitVec 16) (fds : List Int) (i : Nat) : Stays (readsOf .waits) (writesOf .waits) (pollsP ev fds i) := by
  induction fds generalizing i with
  | nil => exact trivial
  | cons fd fds ih => exact ⟨trivial, ih _⟩

theorem askP_stays (n i : Nat) (acc : List (Int × BitVec 16)) : Stays (readsOf .waits) (writesOf .waits) (askP n i acc) := by
  induction n generalizing i acc with
  | zero => exact trivial
  | succ n ih => exact ⟨trivial, fun _ => ih _ _⟩

theorem eventsP_stays (n i : Nat) (rs : List (BitVec 16)) : Stays (readsOf .waits) (writesOf .waits) (eventsP n i rs) := by
  induction n generalizing i rs with
  | zero => exact trivial
  | succ n ih => exact ⟨trivial, fun _ => ⟨trivial, ih _ _⟩⟩

theorem errorsP_stays (n i : Nat) : Stays (readsOf .waits) (writesOf .waits) (errorsP n i) := by
  induction n generalizing i with
  | zero => exact trivial
  | succ n ih =>
    refine ⟨trivial, fun p => ?_⟩
    dsimp only
    split
    · exact trivial
    · exact ih _

theorem selectP_stays (abs : Nat → Int → Outcome Int) (fds : List Int) (t : Duration) (ig : Bool) (ans : PollAns) :
    Stays (readsOf .waits) (writesOf .waits) (selectP abs fds t ig ans) := by
  refine ⟨trivial, fun _ => ⟨trivial, ?_⟩⟩
  refine (pollsP_stays _ _ _).bind fun _ => Stays.bind trivial fun t => (askP_stays _ _ _).bind fun _ => (eventsP_stays _ _ _).bind fun _ => ?_
  split
  · exact trivial
  · split
    · exact trivial
    · exact (errorsP_stays _ _).bind fun _ => trivial

theorem call_stays (abs : Nat → Int → Outcome Int) (fds : List Int) (c : Call) :
    Stays (readsOf (kindOf fds.length c)) (writesOf (kindOf fds.length c)) (c.prog abs fds) := by
  cases c with
  | write k frames n out ans =>
    dsimp only [Call.prog]
    split
    · rename_i hk
      unfold writeP
      split
      · exact trivial
      · rename_i hn
        rw [show kindOf fds.length (.write k frames n out ans) = .sends k by simp [kindOf, hk, hn]]
        exact (fillP_stays _ _ _ _).bind fun _ => (sendP_stays _ _ _ _).bind fun _ => (sentP_stays _ _ _).bind fun _ => trivial
    · exact trivial
  | read k buf out ans =>
    dsimp only [Call.prog]
    split
    · rename_i hk
      unfold readP
      split
      · rename_i hr
        rw [show kindOf fds.length (.read k buf out ans) = .looks k by simp [kindOf, hk, hr]]
        exact ⟨rfl, fun _ => trivial⟩
      · rename_i hr
        rw [show kindOf fds.length (.read k buf out ans) = .receives k by simp only [kindOf, hk, if_true]; rw [if_neg hr]]
        exact (recvP_stays _ _ _).bind fun _ => (loopP_stays _ _ _ _ _).bind fun _ => ⟨rfl, fun _ => ⟨rfl, trivial⟩⟩
    · exact trivial
  | reconfigureFilters fc num ans rounds =>
    dsimp only [Call.prog]
    split <;> exact trivial
  | select t ig ans => exact selectP_stays abs fds t ig ans
  | getStatistics k =>
    dsimp only [Call.prog]
    split
    · rename_i hk
      rw [show kindOf fds.length (.getStatistics k) = .copies k by simp [kindOf, hk]]
      exact ⟨rfl, fun _ => trivial⟩
    · exact trivial

theorem fill_run (k : Nat) (frames : Vector FrameT FramesLen) (n i : Nat) (m : Mem) (bufs : Vector CanfdFrame FramesLen)
    (hm : ∀ j (h : j < FramesLen), m (.buf k j) = bufs[j]) :
    match writeLoop frames n i bufs with
    | .ub u => (fillP k frames n i).run m = .ub u
    | .ok b => ∃ m', (fillP k frames n i).run m = .ok ((), m') ∧ ∀ j (h : j < FramesLen), m' (.buf k j) = b[j] := by
  induction n generalizing i m bufs with
  | zero => exact ⟨m, rfl, hm⟩
  | succ n ih =>
    unfold writeLoop fillP
    by_cases h : i < FramesLen
    · simp only [h, dif_pos]
      dsimp only [Prog.run]
      rw [hm i h]
      cases hc : copyBytes frames[i].data.toList frames[i].getDataLength 0 bufs[i].data with
      | ub u => rfl
      | ok data =>
        refine ih (i + 1) _ _ fun j hj => ?_
        by_cases e : j = i
        · subst e
          rw [Mem.set_same]
          simp
        · rw [Mem.set_ne _ _ _ _ (by simpa using e), hm j hj]
          rw [Vector.getElem_set_ne _ _ (Ne.symm e)]
    · simp only [h, dif_neg, not_false_eq_true]
      rfl

theorem send_run (k n i : Nat) (acc : List CanfdFrame) (m : Mem) :
    (sendP k n i acc).run m = .ok (acc ++ (List.range' i n).map fun j => m (.buf k j), m) := by
  induction n generalizing i acc with
  | zero => simp [sendP, Prog.run]
  | succ n ih =>
    show (sendP k n (i + 1) (acc ++ [m (.buf k i)])).run m = _
    rw [ih, List.range'_succ]
    simp

theorem sent_run (k n i : Nat) (m : Mem) : ∃ m', (sentP k n i).run m = .ok ((), m') ∧ ∀ l, (∀ j, l ≠ .len k j) → m' l = m l := by
  induction n generalizing i m with
  | zero => exact ⟨m, rfl, fun _ _ => rfl⟩
  | succ n ih =>
    obtain ⟨m', h1, h2⟩ := ih (i + 1) (m.set (.len k i) 72)
    exact ⟨m', h1, fun l hl => (h2 l hl).trans (Mem.set_ne _ _ _ _ (hl i))⟩

theorem range_bufs (k n : Nat) (m : Mem) (b : Vector CanfdFrame FramesLen) (hm : ∀ j (h : j < FramesLen), m (.buf k j) = b[j]) (hn : n ≤ 4) :
    ((List.range' 0 n).map fun j => m (.buf k j)) = b.toList.take n := by
  have hl : b.toList.length = 4 := by simp
  apply List.ext_getElem
  · simp only [List.length_map, List.length_range', List.length_take, hl]; omega
  · intro j h1 h2
    have hj : j < 4 := by simp only [List.length_map, List.length_range'] at h1; omega
    have e : (List.range' 0 n)[j]'(by simpa using h1) = j := by simp
    rw [List.getElem_map, e, List.getElem_take, hm j hj]
    rfl

theorem write_run (k : Nat) (frames : Vector FrameT FramesLen) (n : Nat) (ans : SysAns) (m : Mem) (s : Iface) (hm : MemHoldsAt m k s) :
    match s.write frames n ans with
    | .ub u => (writeP k frames n ans).run m = .ub u
    | .ok r => ∃ m', (writeP k frames n ans).run m = .ok (.wrote r.result r.written r.submitted, m') ∧ MemHoldsAt m' k r.iface := by
  unfold Iface.write writeP
  by_cases hn : n = 0
  · simp only [hn, if_true]
    exact ⟨m, rfl, hm⟩
  · simp only [hn, if_false]
    have hf := fill_run k frames n 0 m s.bufs hm.2
    rw [run_bind]
    cases hw : writeLoop frames n 0 s.bufs with
    | ub u =>
      rw [hw] at hf
      rw [hf]; rfl
    | ok b =>
      rw [hw] at hf
      obtain ⟨m1, h1, h2⟩ := hf
      have hn4 : n ≤ 4 := by
        rcases Nat.lt_or_ge 4 n with h | h
        · rw [writeLoop_ub frames n 0 s.bufs (by omega) (by omega)] at hw; cases hw
        · exact h
      have hst : m1 (.stats k) = m (.stats k) := run_frame (fillP_stays k frames n 0) h1 _ (fun h => h)
      obtain ⟨m2, h3, h4⟩ := sent_run k (min ans.res.toNat n) 0 m1
      have hb : MemHoldsAt m2 k { s with bufs := b } :=
        ⟨(h4 _ (fun _ h => by cases h)).trans (hst.trans hm.1), fun j hj => (h4 _ (fun _ h => by cases h)).trans (h2 j hj)⟩
      rw [h1]
      dsimp only
      rw [run_bind, send_run]
      dsimp only
      rw [run_bind, h3, List.nil_append, range_bufs k n m1 b h2 hn4]
      dsimp only [bind, Outcome.bind, pure]
      by_cases e1 : ans.res ≤ 0
      · simp only [e1, if_true]
        by_cases e2 : ans.errno = ENOBUFS ∨ ans.errno = EAGAIN
        · simp only [e2, if_true]; exact ⟨m2, rfl, hb⟩
        · simp only [e2, if_false]; exact ⟨m2, rfl, hb⟩
      · simp only [e1, if_false]
        by_cases e2 : ans.res.toNat < n
        · simp only [e2, if_true]; exact ⟨m2, rfl, hb⟩
        · simp only [e2, if_false]; exact ⟨m2, rfl, hb⟩

theorem recv_run (k : Nat) (ms : List RxMsg) (i : Nat) (m : Mem) (bufs : Vector CanfdFrame FramesLen)
    (hm : ∀ j (h : j < FramesLen), m (.buf k j) = bufs[j]) :
    ∃ m', (recvP k ms i).run m = .ok ((), m') ∧ (∀ j (h : j < FramesLen), m' (.buf k j) = (storeMsgs ms i bufs)[j]) ∧
      m' (.stats k) = m (.stats k) ∧ (∀ t (h : t < ms.length), i + t < FramesLen → m' (.hdr k (i + t)) = ms[t].cmsgs) ∧
      ∀ j, j < i → m' (.hdr k j) = m (.hdr k j) := by
  induction ms generalizing i m bufs with
  | nil => exact ⟨m, rfl, hm, rfl, fun t h => absurd h (by simp), fun _ _ => rfl⟩
  | cons x ms ih =>
    unfold recvP storeMsgs
    by_cases h : i < FramesLen
    · simp only [h, dif_pos, if_true]
      dsimp only [Prog.run]
      rw [hm i h]
      have hbuf : ∀ j (hj : j < FramesLen), (((m.set (.buf k i) (storeMsg bufs[i] x)).set (.hdr k i) x.cmsgs).set (.len k i) 72) (.buf k j) =
          (bufs.set i (storeMsg bufs[i] x))[j] := by
        intro j hj
        rw [Mem.set_ne _ _ _ _ (by simp), Mem.set_ne _ _ _ _ (by simp)]
        by_cases e : j = i
        · subst e; rw [Mem.set_same]; simp
        · rw [Mem.set_ne _ _ _ _ (by simpa using e), hm j hj, Vector.getElem_set_ne _ _ (Ne.symm e)]
      obtain ⟨m', h1, h2, h3, h4, h5⟩ := ih (i + 1) _ _ hbuf
      refine ⟨m', h1, h2, h3.trans ?_, fun t ht hlt => ?_, fun j hj => (h5 j (by omega)).trans ?_⟩
      · rw [Mem.set_ne _ _ _ _ (by simp), Mem.set_ne _ _ _ _ (by simp), Mem.set_ne _ _ _ _ (by simp)]
      · cases t with
        | zero =>
          have := h5 i (by omega)
          rw [Nat.add_zero, this, Mem.set_ne _ _ _ _ (by simp), Mem.set_same]
          rfl
        | succ t =>
          have := h4 t (by simpa using ht) (by omega)
          rw [show i + (t + 1) = i + 1 + t by omega, this]
          simp
      · rw [Mem.set_ne _ _ _ _ (by simp), Mem.set_ne _ _ _ _ (by simp; omega), Mem.set_ne _ _ _ _ (by simp)]
    · simp only [h, dif_neg, if_false, not_false_eq_true]
      exact ⟨m, rfl, hm, rfl, fun t _ hlt => absurd hlt (by omega), fun _ _ => rfl⟩

theorem loop_run (k : Nat) (bufs : Vector CanfdFrame FramesLen) (ms : List RxMsg) (i : Nat) (m : Mem) (st : Statistics) (out : Vector FrameT FramesLen) (c : Nat)
    (hb : ∀ j (h : j < FramesLen), m (.buf k j) = bufs[j]) (hs : m (.stats k) = st)
    (hh : ∀ t (h : t < ms.length), i + t < FramesLen → m (.hdr k (i + t)) = ms[t].cmsgs) :
    match readLoop bufs ms i { stats := st, out_frames := out, out_frames_read := c } with
    | .ub u => (loopP k ms.length i out c).run m = .ub u
    | .ok s => ∃ m', (loopP k ms.length i out c).run m = .ok ((s.out_frames, s.out_frames_read), m') ∧ m' (.stats k) = s.stats ∧
        ∀ j (h : j < FramesLen), m' (.buf k j) = bufs[j] := by
  induction ms generalizing i m st out c with
  | nil => exact ⟨m, rfl, hs, hb⟩
  | cons x ms ih =>
    rw [List.length_cons]
    unfold readLoop loopP
    by_cases h : i < FramesLen
    · simp only [h, dif_pos, if_true]
      dsimp only [Prog.run]
      have h0 := hh 0 (by simp) (by omega)
      rw [Nat.add_zero] at h0
      rw [hb i h, hs, h0]
      dsimp only [List.getElem_cons_zero]
      cases hr : readOne bufs[i] x.cmsgs { stats := st, out_frames := out, out_frames_read := c } with
      | ub u => rfl
      | ok s =>
        have := ih (i + 1) (m.set (.stats k) s.stats) s.stats s.out_frames s.out_frames_read
          (fun j hj => (Mem.set_ne _ _ _ _ (by simp)).trans (hb j hj)) (Mem.set_same _ _ _)
          (fun t ht hlt => by
            rw [Mem.set_ne _ _ _ _ (by simp), show i + 1 + t = i + (t + 1) by omega, hh (t + 1) (by simpa using ht) (by omega)]
            simp)
        exact this
    · simp only [h, dif_neg, if_false, not_false_eq_true]
      exact ⟨m, rfl, hs, hb⟩

theorem read_run (k : Nat) (buf : Vector FrameT FramesLen) (ans : RecvAns) (m : Mem) (s : Iface) (hm : MemHoldsAt m k s) :
    match s.read buf ans with
    | .ub u => (readP k buf ans).run m = .ub u
    | .ok r => ∃ m', (readP k buf ans).run m = .ok (.got r.result r.out_frames r.read, m') ∧ MemHoldsAt m' k r.iface := by
  unfold Iface.read readP
  by_cases hr : ans.res ≤ 0
  · simp only [hr, if_true]
    exact ⟨m, rfl, hm⟩
  · simp only [hr, if_false]
    obtain ⟨m1, h1, h2, h3, h4, _⟩ := recv_run k (ans.msgs.take ans.res.toNat) 0 m s.bufs hm.2
    have hl := loop_run k (storeMsgs (ans.msgs.take ans.res.toNat) 0 s.bufs) (ans.msgs.take ans.res.toNat) 0 m1 s.stats buf 0 h2 (h3.trans hm.1)
      (fun t ht hlt => h4 t ht hlt)
    rw [run_bind, h1]
    dsimp only
    rw [run_bind]
    cases hw : readLoop (storeMsgs (ans.msgs.take ans.res.toNat) 0 s.bufs) (ans.msgs.take ans.res.toNat) 0
        { stats := s.stats, out_frames := buf, out_frames_read := 0 } with
    | ub u =>
      rw [hw] at hl
      rw [hl]; rfl
    | ok r =>
      rw [hw] at hl
      obtain ⟨m2, h5, h6, h7⟩ := hl
      rw [h5]
      dsimp only [Prog.run]
      rw [h6]
      exact ⟨_, rfl, Mem.set_same _ _ _, fun j hj => (Mem.set_ne _ _ _ _ (by simp)).trans (h7 j hj)⟩

theorem polls_run (ev : BitVec 16) (fds : List Int) (i : Nat) (m : Mem) :
    ∃ m', (pollsP ev fds i).run m = .ok ((), m') ∧ (∀ t (h : t < fds.length), m' (.poll (i + t)) = (fds[t], ev, 0)) ∧ ∀ j, j < i → m' (.poll j) = m (.poll j) := by
  induction fds generalizing i m with
  | nil => exact ⟨m, rfl, fun t h => absurd h (by simp), fun _ _ => rfl⟩
  | cons fd fds ih =>
    obtain ⟨m', h1, h2, h3⟩ := ih (i + 1) (m.set (.poll i) (fd, ev, 0))
    refine ⟨m', h1, fun t ht => ?_, fun j hj => (h3 j (by omega)).trans (Mem.set_ne _ _ _ _ (by simp; omega))⟩
    cases t with
    | zero => rw [Nat.add_zero, h3 i (by omega), Mem.set_same]; rfl
    | succ t => rw [show i + (t + 1) = i + 1 + t by omega, h2 t (by simpa using ht)]; simp

theorem ask_run (n i : Nat) (acc : List (Int × BitVec 16)) (m : Mem) :
    (askP n i acc).run m = .ok (acc ++ (List.range' i n).map (fun j => ((m (.poll j)).1, (m (.poll j)).2.1)), m) := by
  induction n generalizing i acc with
  | zero => simp [askP, Prog.run]
  | succ n ih =>
    show (askP n (i + 1) (acc ++ [((m (.poll i)).1, (m (.poll i)).2.1)])).run m = _
    rw [ih, List.range'_succ]
    simp

theorem events_run (n i : Nat) (rs : List (BitVec 16)) (m : Mem) :
    ∃ m', (eventsP n i rs).run m = .ok ((), m') ∧ (∀ t, t < n → (m' (.poll (i + t))).2.2 = rs.getD t 0) ∧ ∀ j, j < i → m' (.poll j) = m (.poll j) := by
  induction n generalizing i rs m with
  | zero => exact ⟨m, rfl, fun t h => absurd h (by omega), fun _ _ => rfl⟩
  | succ n ih =>
    obtain ⟨m', h1, h2, h3⟩ := ih (i + 1) rs.tail (m.set (.poll i) ((m (.poll i)).1, (m (.poll i)).2.1, rs.headD 0))
    refine ⟨m', h1, fun t ht => ?_, fun j hj => (h3 j (by omega)).trans (Mem.set_ne _ _ _ _ (by simp; omega))⟩
    cases t with
    | zero => rw [Nat.add_zero, h3 i (by omega), Mem.set_same]; cases rs <;> rfl
    | succ t => rw [show i + (t + 1) = i + 1 + t by omega, h2 t (by omega)]; cases rs <;> simp

theorem errors_run (n i : Nat) (m : Mem) : (errorsP n i).run m = .ok (pollLoop ((List.range' i n).map fun j => (m (.poll j)).2.2), m) := by
  induction n generalizing i with
  | zero => rfl
  | succ n ih =>
    rw [List.range'_succ]
    unfold errorsP
    rw [List.map_cons]
    dsimp only [Prog.run]
    unfold pollLoop
    split
    · rfl
    · exact ih _

theorem pollLoop_zeros (rs : List (BitVec 16)) (n i : Nat) : pollLoop ((List.range' i n).map fun j => rs.getD j 0) = pollLoop ((rs.drop i).take n) := by
  induction n generalizing i with
  | zero => rfl
  | succ n ih =>
    rw [List.range'_succ]
    rcases Nat.lt_or_ge i rs.length with h | h
    · rw [List.drop_eq_getElem_cons h, List.take_succ_cons]
      simp only [List.map_cons, pollLoop]
      rw [ih, show rs.getD i 0 = rs[i] by simp [List.getD, h]]
    · simp only [List.map_cons, pollLoop]
      rw [ih, show rs.getD i 0 = 0 by simp [List.getD, h], List.drop_eq_nil_of_le h, List.drop_eq_nil_of_le (by omega)]
      simp [pollLoop]

theorem select_run (abs : Nat → Int → Outcome Int) (g : Group) (t : Duration) (ig : Bool) (ans : PollAns) (m : Mem) :
    match g.select abs t ig ans with
    | .ub u => (selectP abs (g.interfaces.map (·.fd)) t ig ans).run m = .ub u
    | .ok r => ∃ m', (selectP abs (g.interfaces.map (·.fd)) t ig ans).run m = .ok (.selected r.1 r.2, m') := by
  unfold Group.select selectP
  dsimp only [Prog.run]
  generalize hev : (if ig = true then POLLIN ||| POLLPRI else POLLIN ||| POLLPRI ||| POLLOUT) = ev
  generalize hfd : g.interfaces.map (·.fd) = fds
  obtain ⟨m1, h1, h2, _⟩ := polls_run ev fds 0 (m.set .polls (max (m .polls) fds.length))
  have hlen : fds.length = g.interfaces.length := by rw [← hfd]; simp
  have hmap : (g.interfaces.map fun i => (i.fd, ev)) = (List.range' 0 fds.length).map (fun j => ((m1 (.poll j)).1, (m1 (.poll j)).2.1)) := by
    apply List.ext_getElem
    · simp [hlen]
    · intro j h3 h4
      have hj : j < fds.length := by simpa [hlen] using h3
      have e : (List.range' 0 fds.length)[j]'(by simpa using hj) = j := by simp
      have e2 := h2 j hj
      rw [Nat.zero_add] at e2
      rw [List.getElem_map, List.getElem_map, e, e2]
      subst hfd
      simp
  rw [run_bind, h1]
  dsimp only
  cases hs : signedResult 64 (t.toMicrosecond.tdiv 1000000 * 1000000) with
  | ub u => rfl
  | ok whole =>
    dsimp only [bind, Outcome.bind, pure]
    cases hd : t.sub abs defaultWidth (Duration.fromMicrosecond whole) with
    | ub u => rfl
    | ok rest =>
      dsimp only [Prog.bind]
      rw [run_bind, ask_run]
      dsimp only
      rw [run_bind]
      obtain ⟨m2, h5, h6, _⟩ := events_run fds.length 0 ans.revents m1
      rw [h5, List.nil_append, ← hmap]
      dsimp only
      by_cases e1 : ans.res = 0
      · simp only [e1, if_true]; exact ⟨m2, rfl⟩
      · simp only [e1, if_false]
        by_cases e2 : ans.res < 0
        · simp only [e2, if_true]; exact ⟨m2, rfl⟩
        · simp only [e2, if_false]
          rw [run_bind, errors_run]
          refine ⟨m2, ?_⟩
          dsimp only [Prog.run]
          have : ((List.range' 0 fds.length).map fun j => (m2 (.poll j)).2.2) = (List.range' 0 fds.length).map fun j => ans.revents.getD j 0 := by
            apply List.map_congr_left
            intro j hj
            have := h6 j (by simpa using hj)
            rwa [Nat.zero_add] at this
          rw [this, pollLoop_zeros, List.drop_zero, hlen]

theorem reconfLoop_fds (ifs ifs' : List Iface) (h : ifs.map (·.fd) = ifs'.map (·.fd)) (fc : Option (List Filter)) (num : Nat) (ans : Nat → Int)
    (fuel i k : Nat) (calls : List SetFilter) : reconfLoop ifs fc num ans fuel i k calls = reconfLoop ifs' fc num ans fuel i k calls := by
  induction fuel generalizing i k calls with
  | zero => rfl
  | succ fuel ih =>
    have he : ifs[i]?.map (·.fd) = ifs'[i]?.map (·.fd) := by rw [← List.getElem?_map, ← List.getElem?_map, h]
    dsimp only [reconfLoop]
    cases h1 : ifs[i]? with
    | none =>
      rw [h1] at he
      cases h2 : ifs'[i]? with
      | none => rfl
      | some b => rw [h2] at he; cases he
    | some a =>
      rw [h1] at he
      cases h2 : ifs'[i]? with
      | none => rw [h2] at he; cases he
      | some b =>
        rw [h2] at he
        simp only [Option.map_some, Option.some.injEq] at he
        dsimp only
        rw [he]
        cases configureFilters b.fd fc num (ans k) with
        | ub u => rfl
        | ok r => dsimp only; split <;> first | rfl | exact ih _ _ _

theorem iface_write_fd (s : Iface) (frames : Vector FrameT FramesLen) (n : Nat) (ans : SysAns) (r : SocketCan.WriteOut) (h : s.write frames n ans = .ok r) :
    r.iface.fd = s.fd := by
  unfold Iface.write at h
  split at h
  · cases h; rfl
  · cases hw : writeLoop frames n 0 s.bufs with
    | ub u => rw [hw] at h; cases h
    | ok b =>
      rw [hw] at h
      dsimp only [bind, Outcome.bind, pure] at h
      repeat' split at h
      all_goals (cases h; rfl)

theorem iface_read_fd (s : Iface) (out : Vector FrameT FramesLen) (ans : RecvAns) (r : SocketCan.ReadOut) (h : s.read out ans = .ok r) : r.iface.fd = s.fd := by
  unfold Iface.read at h
  split at h
  · cases h; rfl
  · dsimp only at h
    cases hw : readLoop (storeMsgs (ans.msgs.take ans.res.toNat) 0 s.bufs) (ans.msgs.take ans.res.toNat) 0
        { stats := s.stats, out_frames := out, out_frames_read := 0 } with
    | ub u => rw [hw] at h; cases h
    | ok b => rw [hw] at h; cases h; rfl

theorem fds_set (l : List Iface) (k : Nat) (s s' : Iface) (h : l[k]? = some s) (he : s'.fd = s.fd) : (l.set k s').map (·.fd) = l.map (·.fd) := by
  rw [List.map_set, he]
  apply List.ext_getElem?
  intro j
  by_cases e : j = k
  · subst e
    have hj := (List.getElem?_eq_some_iff.1 h).1
    rw [List.getElem?_set_self (by simpa using hj), List.getElem?_map, h]; rfl
  · rw [List.getElem?_set_ne (Ne.symm e)]

/-- A call that changes the interface `k` only. -/
theorem holds_set {m m' : Mem} {g : Group} {k : Nat} {s s' : Iface} (hm : MemHolds m g) (hs : g.interfaces[k]? = some s) (h' : MemHoldsAt m' k s')
    (hf : ∀ l, ¬ l.of k → m' l = m l) : MemHolds m' ⟨g.interfaces.set k s'⟩ := by
  intro j i hj
  by_cases e : j = k
  · subst e
    rw [List.getElem?_set_self (List.getElem?_eq_some_iff.1 hs).1] at hj
    cases hj; exact h'
  · rw [List.getElem?_set_ne (Ne.symm e)] at hj
    have := hm j i hj
    exact ⟨(hf (.stats j) (fun h => e h)).trans this.1, fun x hx => (hf (.buf j x) (fun h => e h)).trans (this.2 x hx)⟩

theorem writesOf_sends {k : Nat} {l : Loc} (h : ¬ l.of k) : ¬ writesOf (.sends k) l := by
  cases l <;> exact fun h' => h (by first | exact h' | exact absurd h' (fun h => h))

theorem writesOf_receives {k : Nat} {l : Loc} (h : ¬ l.of k) : ¬ writesOf (.receives k) l := fun h' => h h'

theorem call_run (abs : Nat → Int → Outcome Int) (g : Group) (c : Call) (m : Mem) (hm : MemHolds m g) :
    match groupAnswer abs g c with
    | .ub u => (c.prog abs (g.interfaces.map (·.fd))).run m = .ub u
    | .ok r => ∃ m', (c.prog abs (g.interfaces.map (·.fd))).run m = .ok (r.1, m') ∧ MemHolds m' r.2 ∧
        r.2.interfaces.map (·.fd) = g.interfaces.map (·.fd) := by
  have hst := call_stays abs (g.interfaces.map (·.fd)) c
  cases c with
  | write k frames n out ans =>
    dsimp only [groupAnswer, Group.write, Call.prog] at hst ⊢
    cases hk : g.interfaces[k]? with
    | none =>
      have : ¬ k < (g.interfaces.map (·.fd)).length := by simpa using hk
      rw [if_neg this]
      exact ⟨m, rfl, hm, rfl⟩
    | some s =>
      have hlt : k < (g.interfaces.map (·.fd)).length := by simpa using (List.getElem?_eq_some_iff.1 hk).1
      rw [if_pos hlt] at hst ⊢
      have := write_run k frames n ans m s (hm k s hk)
      dsimp only [bind, Outcome.bind, pure]
      cases hw : s.write frames n ans with
      | ub u => rw [hw] at this; exact this
      | ok r =>
        rw [hw] at this
        obtain ⟨m', h1, h2⟩ := this
        refine ⟨m', h1, holds_set hm hk h2 fun l hl => run_frame hst h1 l ?_, fds_set _ _ _ _ hk (iface_write_fd s frames n ans r hw)⟩
        dsimp only [kindOf]
        split
        · exact writesOf_sends hl
        · exact fun h => h
  | read k buf out ans =>
    dsimp only [groupAnswer, Group.read, Call.prog] at hst ⊢
    cases hk : g.interfaces[k]? with
    | none =>
      have : ¬ k < (g.interfaces.map (·.fd)).length := by simpa using hk
      rw [if_neg this]
      exact ⟨m, rfl, hm, rfl⟩
    | some s =>
      have hlt : k < (g.interfaces.map (·.fd)).length := by simpa using (List.getElem?_eq_some_iff.1 hk).1
      rw [if_pos hlt] at hst ⊢
      have := read_run k buf ans m s (hm k s hk)
      dsimp only [bind, Outcome.bind, pure]
      cases hw : s.read buf ans with
      | ub u => rw [hw] at this; exact this
      | ok r =>
        rw [hw] at this
        obtain ⟨m', h1, h2⟩ := this
        refine ⟨m', h1, holds_set hm hk h2 fun l hl => run_frame hst h1 l ?_, fds_set _ _ _ _ hk (iface_read_fd s buf ans r hw)⟩
        dsimp only [kindOf]
        rw [if_pos hlt]
        split
        · exact fun h => h
        · exact writesOf_receives hl
  | reconfigureFilters fc num ans rounds =>
    dsimp only [groupAnswer, Group.reconfigureFilters, Call.prog]
    rw [reconfLoop_fds ((g.interfaces.map (·.fd)).map fun fd => Iface.mk' 0 "" fd) g.interfaces (by simp [Iface.mk'])]
    cases reconfLoop g.interfaces fc num ans rounds 0 0 [] with
    | none => rfl
    | some o =>
      cases o with
      | ub u => rfl
      | ok r => exact ⟨m, rfl, hm, rfl⟩
  | select t ig ans =>
    have := select_run abs g t ig ans m
    dsimp only [groupAnswer, Call.prog] at hst ⊢
    dsimp only [bind, Outcome.bind, pure]
    cases hw : g.select abs t ig ans with
    | ub u => rw [hw] at this; exact this
    | ok r =>
      rw [hw] at this
      obtain ⟨m', h1⟩ := this
      refine ⟨m', h1, fun k i hk => ?_, rfl⟩
      have := hm k i hk
      exact ⟨(run_frame hst h1 (.stats k) (fun h => h)).trans this.1, fun j hj => (run_frame hst h1 (.buf k j) (fun h => h)).trans (this.2 j hj)⟩
  | getStatistics k =>
    dsimp only [groupAnswer, Group.getInterface, Call.prog]
    cases hk : g.interfaces[k]? with
    | none =>
      have : ¬ k < (g.interfaces.map (·.fd)).length := by simpa using hk
      rw [if_neg this]
      exact ⟨m, rfl, hm, rfl⟩
    | some s =>
      have hlt : k < (g.interfaces.map (·.fd)).length := by simpa using (List.getElem?_eq_some_iff.1 hk).1
      rw [if_pos hlt]
      refine ⟨m, ?_, hm, rfl⟩
      dsimp only [Prog.run]
      rw [(hm k s hk).1]
      rfl

theorem client_run (abs : Nat → Int → Outcome Int) (c : Client) (g : Group) (m : Mem) (acc : List Ans) (hm : MemHolds m g) :
    match alone abs g c acc with
    | .ub u => (c.prog abs (g.interfaces.map (·.fd)) acc).run m = .ub u
    | .ok r => ∃ m', (c.prog abs (g.interfaces.map (·.fd)) acc).run m = .ok (r.1, m') ∧ MemHolds m' r.2 := by
  induction c generalizing g m acc with
  | stop => exact ⟨m, rfl, hm⟩
  | call c next ih =>
    have := call_run abs g c m hm
    dsimp only [alone, Client.prog]
    rw [run_bind]
    cases hw : groupAnswer abs g c with
    | ub u => rw [hw] at this; rw [this]; rfl
    | ok r =>
      rw [hw] at this
      obtain ⟨m', h1, h2, h3⟩ := this
      rw [h1]
      have := ih r.1 r.2 m' (acc ++ [r.1]) h2
      rw [h3] at this
      exact this

/-- The locations of a thread. -/
def ownedBy (owner : Nat → Nat) (waiter t : Nat) : Loc → Prop
  | .buf k _ => owner k = t
  | .hdr k _ => owner k = t
  | .len k _ => owner k = t
  | .stats k => owner k = t
  | .polls => waiter = t
  | .poll _ => waiter = t

theorem kind_owned (owner : Nat → Nat) (waiter t n : Nat) (c : Call) (h1 : ∀ k, forInterface c = some k → owner k = t) (h2 : isSelect c = true → waiter = t)
    (l : Loc) (h : readsOf (kindOf n c) l ∨ writesOf (kindOf n c) l) : ownedBy owner waiter t l := by
  cases c with
  | write k frames len out ans =>
    have hk := h1 k rfl
    dsimp only [kindOf] at h
    split at h
    · cases l <;> rcases h with h | h <;> first | (cases h; exact hk) | exact h.elim
    · exact h.elim (fun h => h.elim) fun h => h.elim
  | read k buf out ans =>
    have hk := h1 k rfl
    dsimp only [kindOf] at h
    repeat' split at h
    · cases l <;> rcases h with h | h <;> first | (cases h; exact hk) | exact h.elim
    · cases l <;> rcases h with h | h <;> first | (cases h; exact hk) | exact h.elim
    · exact h.elim (fun h => h.elim) fun h => h.elim
  | reconfigureFilters fc num ans rounds => exact h.elim (fun h => h.elim) fun h => h.elim
  | select d ig ans =>
    have hw := h2 rfl
    cases l <;> first | exact hw | exact h.elim (fun h => h.elim) fun h => h.elim
  | getStatistics k =>
    have hk := h1 k rfl
    dsimp only [kindOf] at h
    split at h
    · cases l <;> rcases h with h | h <;> first | (cases h; exact hk) | exact h.elim
    · exact h.elim (fun h => h.elim) fun h => h.elim

theorem client_stays (abs : Nat → Int → Outcome Int) (fds : List Int) (owner : Nat → Nat) (waiter t : Nat) (c : Client) (acc : List Ans)
    (h : AllCalls (fun call => (∀ k, forInterface call = some k → owner k = t) ∧ (isSelect call = true → waiter = t)) c) :
    Stays (ownedBy owner waiter t) (ownedBy owner waiter t) (c.prog abs fds acc) := by
  induction c generalizing acc with
  | stop => exact trivial
  | call c next ih =>
    refine Stays.bind ?_ fun a => ih a _ (h.2 a)
    exact (call_stays abs fds c).mono (fun l hl => kind_owned owner waiter t _ c h.1.1 h.1.2 l (.inl hl)) fun l hl =>
      kind_owned owner waiter t _ c h.1.1 h.1.2 l (.inr hl)

theorem owned_apart (owner : Nat → Nat) (waiter t u : Nat) (h : t ≠ u) (l : Loc) (ht : ownedBy owner waiter t l) : ¬ ownedBy owner waiter u l := by
  cases l <;> exact fun hu => h (ht.symm.trans hu)

/-- A thread left alone comes to its end. -/
theorem ends_alone {α : Type} (p : Prog α) : ∀ (m : Mem) (ps : List (Prog α)) (t : Nat), ps[t]? = some p →
    ∃ n m' r, threads m ps (List.replicate n t) = (m', ps.set t (.done r)) := by
  induction p with
  | done r =>
    intro m ps t h
    refine ⟨0, m, r, ?_⟩
    obtain ⟨ht, he⟩ := List.getElem?_eq_some_iff.1 h
    rw [← he, List.set_getElem_self]; rfl
  | get l next ih =>
    intro m ps t h
    have ht := (List.getElem?_eq_some_iff.1 h).1
    obtain ⟨n, m', r, e⟩ := ih (m l) m (ps.set t (next (m l))) t (List.getElem?_set_self ht)
    refine ⟨n + 1, m', r, ?_⟩
    rw [List.replicate_succ]
    unfold threads
    rw [h]
    dsimp only [step]
    rw [e, List.set_set]
  | put l v next ih =>
    intro m ps t h
    have ht := (List.getElem?_eq_some_iff.1 h).1
    obtain ⟨n, m', r, e⟩ := ih (m.set l v) (ps.set t next) t (List.getElem?_set_self ht)
    refine ⟨n + 1, m', r, ?_⟩
    rw [List.replicate_succ]
    unfold threads
    rw [h]
    dsimp only [step]
    rw [e, List.set_set]

theorem threads_append {α : Type} (a b : List Nat) (m : Mem) (ps : List (Prog α)) :
    threads m ps (a ++ b) = threads (threads m ps a).1 (threads m ps a).2 b := by
  induction a generalizing m ps with
  | nil => rfl
  | cons t a ih =>
    rw [List.cons_append]
    dsimp only [threads]
    cases ps[t]? with
    | none => exact ih _ _
    | some p => exact ih _ _

/-- The first part of a program, run alone, leads to the second. -/
theorem reach_bind {α β : Type} (p : Prog α) (f : α → Prog β) : ∀ (m m' : Mem) (a : α) (ps : List (Prog β)) (t : Nat), p.run m = .ok (a, m') →
    ps[t]? = some (p.bind f) → ∃ n, threads m ps (List.replicate n t) = (m', ps.set t (f a)) := by
  induction p with
  | done r =>
    intro m m' a ps t hr h
    cases r with
    | ub u => exact nomatch (show Outcome.ub u = Outcome.ok _ from hr)
    | ok b =>
      cases hr
      refine ⟨0, ?_⟩
      obtain ⟨ht, he⟩ := List.getElem?_eq_some_iff.1 h
      have he : ps[t] = f a := he
      rw [← he, List.set_getElem_self]; rfl
  | get l next ih =>
    intro m m' a ps t hr h
    have ht := (List.getElem?_eq_some_iff.1 h).1
    obtain ⟨n, e⟩ := ih (m l) m m' a (ps.set t ((next (m l)).bind f)) t hr (List.getElem?_set_self ht)
    refine ⟨n + 1, ?_⟩
    rw [List.replicate_succ]
    unfold threads
    rw [h]
    dsimp only [step, Prog.bind]
    rw [e, List.set_set]
  | put l v next ih =>
    intro m m' a ps t hr h
    have ht := (List.getElem?_eq_some_iff.1 h).1
    obtain ⟨n, e⟩ := ih (m.set l v) m' a (ps.set t (next.bind f)) t hr (List.getElem?_set_self ht)
    refine ⟨n + 1, ?_⟩
    rw [List.replicate_succ]
    unfold threads
    rw [h]
    dsimp only [step, Prog.bind]
    rw [e, List.set_set]

/-- The beginning of a program that sends: it looks at the first buffer and writes it. -/
theorem sends_starts (abs : Nat → Int → Outcome Int) (fds : List Int) (c : Call) (k : Nat) (h : kindOf fds.length c = .sends k) (m : Mem) (r : Ans × Mem)
    (hr : (c.prog abs fds).run m = .ok r) : ∃ f : CanfdFrame → Prog Ans, c.prog abs fds = .get (.buf k 0) f ∧ ∃ v p, f (m (.buf k 0)) = .put (.buf k 0) v p := by
  cases c with
  | write j frames n out ans =>
    dsimp only [kindOf] at h
    split at h
    · rename_i hj
      cases h
      obtain ⟨n, rfl⟩ : ∃ n', n = n' + 1 := ⟨n - 1, by omega⟩
      dsimp only [Call.prog] at hr ⊢
      rw [if_pos hj.1] at hr ⊢
      unfold writeP at hr ⊢
      rw [if_neg (by omega)] at hr ⊢
      unfold fillP at hr ⊢
      rw [dif_pos (show 0 < FramesLen by decide)] at hr ⊢
      refine ⟨_, rfl, ?_⟩
      dsimp only [Prog.bind, Prog.run] at hr ⊢
      split
      · rename_i u hu
        rw [hu] at hr
        exact nomatch (show Outcome.ub u = Outcome.ok _ from hr)
      · exact ⟨_, _, rfl⟩
    · cases h
  | read j buf out ans => dsimp only [kindOf] at h; repeat' split at h
                          all_goals cases h
  | reconfigureFilters fc num ans rounds => cases h
  | select t ig ans => cases h
  | getStatistics j => dsimp only [kindOf] at h; split at h <;> cases h

/-- The beginning of a program that receives: it looks at the first header and the first buffer and writes them. -/
theorem receives_starts (abs : Nat → Int → Outcome Int) (fds : List Int) (c : Call) (k : Nat) (h : kindOf fds.length c = .receives k)
    (hv : ∀ j buf out ans, c = .read j buf out ans → ValidRecv ans) :
    ∃ (f : CanfdFrame → CanfdFrame) (cs : List Cmsg) (p : Prog Ans),
      c.prog abs fds = .get (.hdr k 0) fun _ => .get (.buf k 0) fun old => .put (.buf k 0) (f old) (.put (.hdr k 0) cs p) := by
  cases c with
  | write j frames n out ans => dsimp only [kindOf] at h; split at h <;> cases h
  | read j buf out ans =>
    have hval := hv j buf out ans rfl
    dsimp only [kindOf] at h
    split at h
    · rename_i hj
      split at h
      · cases h
      · rename_i hres
        cases h
        have hlen := hval.2 (by omega)
        cases hm : ans.msgs with
        | nil => rw [hm] at hlen; simp at hlen; omega
        | cons a as =>
          obtain ⟨x, hx⟩ : ∃ x, ans.res.toNat = x + 1 := ⟨ans.res.toNat - 1, by omega⟩
          dsimp only [Call.prog]
          rw [if_pos hj]
          unfold readP
          rw [if_neg hres, hm, hx, List.take_succ_cons]
          unfold recvP
          rw [if_pos (show 0 < FramesLen by decide)]
          exact ⟨_, _, _, rfl⟩
    · cases h
  | reconfigureFilters fc num ans rounds => cases h
  | select t ig ans => cases h
  | getStatistics j => dsimp only [kindOf] at h; split at h <;> cases h

/-- A program that receives comes to write the statistics. -/
theorem receives_counts (abs : Nat → Int → Outcome Int) (fds : List Int) (c : Call) (k : Nat) (h : kindOf fds.length c = .receives k) (m : Mem) (r : Ans × Mem)
    (hr : (c.prog abs fds).run m = .ok r) (ps : List (Prog Ans)) (t : Nat) (ht : ps[t]? = some (c.prog abs fds)) :
    ∃ n v p, (threads m ps (List.replicate n t)).2 = ps.set t (.put (.stats k) v p) := by
  cases c with
  | write j frames n out ans => dsimp only [kindOf] at h; split at h <;> cases h
  | read j buf out ans =>
    dsimp only [kindOf] at h
    split at h
    · rename_i hj
      split at h
      · cases h
      · rename_i hres
        cases h
        dsimp only [Call.prog] at hr ht
        rw [if_pos hj] at hr ht
        unfold readP at hr ht
        rw [if_neg hres] at hr ht
        rw [run_bind] at hr
        cases h1 : (recvP k (ans.msgs.take ans.res.toNat) 0).run m with
        | ub u => rw [h1] at hr; cases hr
        | ok a =>
          rw [h1] at hr
          dsimp only at hr
          rw [run_bind] at hr
          cases h2 : (loopP k (ans.msgs.take ans.res.toNat).length 0 buf 0).run a.2 with
          | ub u => rw [h2] at hr; cases hr
          | ok b =>
            have hlt := (List.getElem?_eq_some_iff.1 ht).1
            obtain ⟨n1, e1⟩ := reach_bind _ _ m a.2 a.1 ps t h1 ht
            obtain ⟨n2, e2⟩ := reach_bind _ _ a.2 b.2 b.1 (ps.set t _) t h2 (List.getElem?_set_self hlt)
            refine ⟨n1 + n2 + 1, { b.2 (.stats k) with rx_total := (b.2 (.stats k)).rx_total + (BitVec.ofNat 32 b.1.2).setWidth 64 },
              .done (.ok (.got .Success b.1.1 b.1.2)), ?_⟩
            rw [← List.replicate_append_replicate, ← List.replicate_append_replicate, threads_append, threads_append, e1]
            dsimp only
            rw [e2, List.set_set]
            dsimp only [List.replicate, threads]
            rw [List.getElem?_set_self hlt]
            dsimp only [step]
            rw [List.set_set]
    · cases h
  | reconfigureFilters fc num ans rounds => cases h
  | select t ig ans => cases h
  | getStatistics j => dsimp only [kindOf] at h; split at h <;> cases h

theorem looks_is (abs : Nat → Int → Outcome Int) (fds : List Int) (c : Call) (k : Nat) (h : kindOf fds.length c = .looks k) :
    ∃ f : List Cmsg → Prog Ans, c.prog abs fds = .get (.hdr k 0) f := by
  cases c with
  | write j frames n out ans => dsimp only [kindOf] at h; split at h <;> cases h
  | read j buf out ans =>
    dsimp only [kindOf] at h
    split at h
    · rename_i hj
      split at h
      · rename_i hres
        cases h
        dsimp only [Call.prog]
        rw [if_pos hj]
        unfold readP
        rw [if_pos hres]
        exact ⟨_, rfl⟩
      · cases h
    · cases h
  | reconfigureFilters fc num ans rounds => cases h
  | select t ig ans => cases h
  | getStatistics j => dsimp only [kindOf] at h; split at h <;> cases h

theorem copies_is (abs : Nat → Int → Outcome Int) (fds : List Int) (c : Call) (k : Nat) (h : kindOf fds.length c = .copies k) :
    ∃ f : Statistics → Prog Ans, c.prog abs fds = .get (.stats k) f := by
  cases c with
  | write j frames n out ans => dsimp only [kindOf] at h; split at h <;> cases h
  | read j buf out ans => dsimp only [kindOf] at h; repeat' split at h
                          all_goals cases h
  | reconfigureFilters fc num ans rounds => cases h
  | select t ig ans => cases h
  | getStatistics j =>
    dsimp only [kindOf] at h
    split at h
    · rename_i hj
      cases h
      dsimp only [Call.prog]
      rw [if_pos hj]
      exact ⟨_, rfl⟩
    · cases h

theorem waits_is (abs : Nat → Int → Outcome Int) (fds : List Int) (c : Call) (h : kindOf fds.length c = .waits) :
    ∃ (f : Nat → Nat) (p : Prog Ans), c.prog abs fds = .get .polls fun cap => .put .polls (f cap) p := by
  cases c with
  | write j frames n out ans => dsimp only [kindOf] at h; split at h <;> cases h
  | read j buf out ans => dsimp only [kindOf] at h; repeat' split at h
                          all_goals cases h
  | reconfigureFilters fc num ans rounds => cases h
  | select t ig ans => exact ⟨_, _, rfl⟩
  | getStatistics j => dsimp only [kindOf] at h; split at h <;> cases h

theorem disturb_symm {a b : CallKind} (h : Disturb a b) : Disturb b a := by
  cases a <;> cases b <;> first | exact h.elim | exact trivial | exact h.symm

/-- Calls that do not disturb one another have footprints apart. -/
theorem footprints_apart {a b : CallKind} (h : ¬ Disturb a b) (l : Loc) (hw : writesOf a l) : ¬ readsOf b l ∧ ¬ writesOf b l := by
  refine ⟨fun hr => h ?_, fun hr => h ?_⟩ <;>
  cases a <;> cases b <;> cases l <;>
    first
    | exact (hw : False).elim
    | exact (hr : False).elim
    | exact trivial
    | exact (hw : _ = _).symm.trans (hr : _ = _)

/-- Two threads, the other way round. -/
theorem swap_threads {α : Type} (sched : List Nat) : ∀ (m : Mem) (p q : Prog α), ∃ (m' : Mem) (p' q' : Prog α), threads m [p, q] sched = (m', [p', q']) ∧
    threads m [q, p] (sched.map fun t => if t = 0 then 1 else if t = 1 then 0 else t) = (m', [q', p']) := by
  induction sched with
  | nil => intro m p q; exact ⟨m, p, q, rfl, rfl⟩
  | cons t sched ih =>
    intro m p q
    match t with
    | 0 => exact ih (step m p).1 (step m p).2 q
    | 1 => exact ih (step m q).1 p (step m q).2
    | t + 2 =>
      obtain ⟨m', p', q', h1, h2⟩ := ih m p q
      exact ⟨m', p', q', h1, by simpa [threads] using h2⟩

theorem race_swap {α : Type} {p q : Prog α} (h : Race [p, q]) : Race [q, p] := by
  obtain ⟨t, u, a, b, l, x, y, hne, ht, hu, ha, hb, hxy⟩ := h
  have h2 : ∀ (i : Nat) (r : Prog α), [p, q][i]? = some r → [q, p][1 - i]? = some r ∧ i < 2 := by
    intro i r hi
    match i with
    | 0 => exact ⟨hi, by omega⟩
    | 1 => exact ⟨hi, by omega⟩
    | i + 2 => cases hi
  obtain ⟨t1, t2⟩ := h2 t a ht
  obtain ⟨u1, u2⟩ := h2 u b hu
  exact ⟨1 - t, 1 - u, a, b, l, x, y, by omega, t1, u1, ha, hb, hxy⟩

end Uavcan.GroupThreads
