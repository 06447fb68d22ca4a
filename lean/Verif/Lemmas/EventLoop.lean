import Verif.Spec.EventLoop
import Verif.Props.Drain
import Verif.Props.SocketGroup
import Verif.Lemmas.ExampleMain

/-!
# Lemmas about waiting for and reading from a group of interfaces
-/

namespace Uavcan.SocketCan
open Spec Can Time

/-- A socket after a call of `read`. -/
def afterRead (r : RxSock) : RxSock :=
  match r.err with
  | some _ => { r with err := none }
  | none => { r with queue := r.queue.drop 4 }

theorem answer_after {r r1 : RxSock} {ans : RecvAns} (h : r.answer = some (ans, r1)) : r1 = afterRead r := by
  rw [answer_eq] at h
  injection h with h
  unfold afterRead
  cases he : r.err with
  | some e => rw [he] at h; injection h with _ h; exact h.symm
  | none =>
    rw [he] at h
    simp only at h
    by_cases hq : r.queue = []
    · rw [if_pos hq] at h
      injection h with _ h
      rw [← h]
      obtain ⟨q, e⟩ := r
      simp only at hq he
      subst hq he
      rfl
    · rw [if_neg hq] at h
      injection h with _ h; exact h.symm

/-- What an event does to the sockets. -/
def netStep (fds : List Int) (net : Net) : GroupEv → Net
  | .arrive fd ms => net.set fd { net fd with queue := (net fd).queue ++ ms }
  | .fail fd e _ => net.set fd { net fd with err := some e }
  | .select .. => net
  | .read k _ _ => match fds[k]? with
    | none => net
    | some fd => net.set fd (afterRead (net fd))

theorem fds_get (g : Group) (k : Nat) : (fdsOf g)[k]? = (g.interfaces[k]?).map Iface.fd := by
  simp [fdsOf]

theorem loops_net {net net' : Net} {g g' : Group} {evs : List GroupEv} {outs : List GroupOut} (h : Loops net g evs outs net' g') :
    net' = evs.foldl (netStep (fdsOf g)) net ∧ fdsOf g' = fdsOf g := by
  induction h with
  | nil => exact ⟨rfl, rfl⟩
  | arrive _ ih => exact ih
  | fail _ ih => exact ih
  | select _ _ _ ih => exact ih
  | @read net _ g _ k out old i ans r1 o _ _ h1 h2 h3 _ ih =>
    have hf := groupRead_fds h3
    rw [hf] at ih
    refine ⟨?_, ih.2⟩
    rw [ih.1, List.foldl_cons]
    congr 1
    simp only [netStep, fds_get, h1, Option.map_some]
    rw [answer_after h2]
  | @readBad net _ g _ k out old ans o _ _ h1 h3 _ ih =>
    have hf := groupRead_fds h3
    rw [hf] at ih
    refine ⟨?_, ih.2⟩
    rw [ih.1, List.foldl_cons]
    congr 1
    simp only [netStep, fds_get, h1, Option.map_none]

theorem loops_append {e1 e2 : List GroupEv} {net net' : Net} {g g' : Group} {outs : List GroupOut}
    (h : Loops net g (e1 ++ e2) outs net' g') :
    ∃ net1 g1 o1 o2, outs = o1 ++ o2 ∧ Loops net g e1 o1 net1 g1 ∧ Loops net1 g1 e2 o2 net' g' := by
  induction e1 generalizing net g outs with
  | nil => exact ⟨net, g, [], outs, rfl, .nil net g, h⟩
  | cons ev e1 ih =>
    cases h with
    | arrive h => obtain ⟨r1, s1, o1, o2, a, b, c⟩ := ih h; exact ⟨r1, s1, o1, o2, a, .arrive b, c⟩
    | fail h => obtain ⟨r1, s1, o1, o2, a, b, c⟩ := ih h; exact ⟨r1, s1, o1, o2, a, .fail b, c⟩
    | select h1 h2 h =>
      obtain ⟨r1, s1, o1, o2, a, b, c⟩ := ih h
      exact ⟨r1, s1, _ :: o1, o2, by rw [a]; rfl, .select h1 h2 b, c⟩
    | read h1 h2 h3 h =>
      obtain ⟨r1, s1, o1, o2, a, b, c⟩ := ih h
      exact ⟨r1, s1, _ :: o1, o2, by rw [a]; rfl, .read h1 h2 h3 b, c⟩
    | readBad h1 h3 h =>
      obtain ⟨r1, s1, o1, o2, a, b, c⟩ := ih h
      exact ⟨r1, s1, _ :: o1, o2, by rw [a]; rfl, .readBad h1 h3 b, c⟩

theorem realErr_set {net : Net} (he : ∀ fd, RealErr (net fd)) (fd : Int) {r : RxSock} (hr : RealErr r) :
    ∀ x, RealErr ((net.set fd r) x) := by
  intro x
  unfold Net.set
  split
  · exact hr
  · exact he x

theorem realErr_afterRead {r : RxSock} : RealErr (afterRead r) := by
  intro e h
  unfold afterRead at h
  cases hr : r.err with
  | some _ => rw [hr] at h; cases h
  | none => rw [hr] at h; simp only at h; cases h

theorem realErr_step {net : Net} (he : ∀ fd, RealErr (net fd)) (fds : List Int) (ev : GroupEv) : ∀ fd, RealErr (netStep fds net ev fd) := by
  cases ev with
  | arrive fd ms => exact realErr_set he fd (he fd)
  | fail fd e h => exact realErr_set he fd fun e' h' => by cases h'; exact h
  | select => exact he
  | read k _ _ =>
    unfold netStep
    dsimp only
    cases fds[k]? with
    | none => exact he
    | some fd => exact realErr_set he _ realErr_afterRead

theorem realErr_foldl {net : Net} (he : ∀ fd, RealErr (net fd)) (fds : List Int) (evs : List GroupEv) :
    ∀ fd, RealErr (evs.foldl (netStep fds) net fd) := by
  induction evs generalizing net with
  | nil => exact he
  | cons ev evs ih => exact ih (realErr_step he fds ev)

/-- A call of `read` for an interface of a group. -/
theorem groupRead_iface {g : Group} {k : Nat} {i : Iface} (hi : g.interfaces[k]? = some i) (out : Vector FrameT FramesLen) (old : Nat)
    {ans : RecvAns} {o : ReadOut} (h : i.read out ans = .ok o) :
    g.read k out old ans = .ok ⟨o.result, o.out_frames, o.read, ⟨g.interfaces.set k o.iface⟩⟩ := by
  simp only [Group.read, hi, h, Outcome.ok_bind, Outcome.pure_eq]

/-! ## What `select` says -/

/-- An entry has nothing to report. -/
theorem reported_zero (net : Net) (wr : Int → Bool) (ig : Bool) (fd : Int) (h0 : 0 ≤ fd) :
    reported net wr (fd, if ig then POLLIN ||| POLLPRI else POLLIN ||| POLLPRI ||| POLLOUT) = 0 ↔
      (net fd).queue = [] ∧ (net fd).err = none ∧ (ig = false → wr fd = false) := by
  unfold reported
  dsimp only
  rw [if_neg (by omega)]
  by_cases hq : (net fd).queue = [] <;> by_cases he : (net fd).err = none <;> cases ig <;> cases hw : wr fd <;>
    simp [hq, he] <;> decide

theorem reported_err (net : Net) (wr : Int → Bool) (ig : Bool) (fd : Int) (h0 : 0 ≤ fd) :
    Exceptional (reported net wr (fd, if ig then POLLIN ||| POLLPRI else POLLIN ||| POLLPRI ||| POLLOUT)) ↔ (net fd).err ≠ none := by
  unfold reported
  dsimp only
  rw [if_neg (by omega)]
  unfold Exceptional
  by_cases hq : (net fd).queue = [] <;> by_cases he : (net fd).err = none <;> cases ig <;> cases hw : wr fd <;>
    simp [hq, he] <;> decide

/-! ## Rounds -/

theorem nodup_getElem {l : List Int} (hn : l.Nodup) {i j : Nat} (hi : i < l.length) (hj : j < l.length) (h : l[i] = l[j]) : i = j := by
  have hp := List.pairwise_iff_getElem.1 hn
  rcases Nat.lt_trichotomy i j with hl | hl | hl
  · exact absurd h (hp i j hi hj hl)
  · exact hl
  · exact absurd h.symm (hp j i hj hi hl)

theorem reads_range (fds : List Int) (hn : fds.Nodup) (out : Vector FrameT FramesLen) (net : Net) (n : Nat) :
    ∀ (k : Nat) (fd : Int), fds[k]? = some fd →
      (((List.range n).map fun k => GroupEv.read k out 0).foldl (netStep fds) net) fd =
        if k < n then afterRead (net fd) else net fd := by
  induction n with
  | zero => intro k fd h; rfl
  | succ n ih =>
    intro k fd h
    rw [List.range_succ, List.map_append, List.foldl_append]
    simp only [List.map_cons, List.map_nil, List.foldl_cons, List.foldl_nil]
    have ihk := ih k fd h
    generalize ((List.range n).map fun k => GroupEv.read k out 0).foldl (netStep fds) net = net1 at ihk ⊢
    unfold netStep
    dsimp only
    cases hf : fds[n]? with
    | none =>
      dsimp only
      have : k < n := by
        have h1 := (List.getElem?_eq_some_iff.1 h).1
        have h2 := List.getElem?_eq_none_iff.1 hf
        omega
      rw [ihk, if_pos this, if_pos (by omega)]
    | some fd' =>
      dsimp only
      unfold Net.set
      by_cases hkn : k = n
      · subst hkn
        rw [h] at hf
        cases hf
        rw [if_pos rfl, ihk, if_neg (by omega), if_pos (by omega)]
      · have hne : fd ≠ fd' := by
          intro hc
          subst hc
          obtain ⟨a, b⟩ := List.getElem?_eq_some_iff.1 h
          obtain ⟨a', b'⟩ := List.getElem?_eq_some_iff.1 hf
          exact hkn (nodup_getElem hn a a' (b.trans b'.symm))
        rw [if_neg hne, ihk]
        by_cases hk : k < n
        · rw [if_pos hk, if_pos (by omega)]
        · rw [if_neg hk, if_neg (by omega)]

/-- A socket after some calls of `read`. -/
def afterReads : Nat → RxSock → RxSock
  | 0, r => r
  | n + 1, r => afterReads n (afterRead r)

theorem afterReads_queue (n : Nat) (r : RxSock) :
    (afterReads n r).queue = r.queue.drop (4 * (n - if r.err = none then 0 else 1)) ∧
      ((afterReads n r).err = none ↔ r.err = none ∨ n ≠ 0) := by
  induction n generalizing r with
  | zero => simp [afterReads]
  | succ n ih =>
    rw [afterReads]
    obtain ⟨h1, h2⟩ := ih (afterRead r)
    rw [h1, h2]
    unfold afterRead
    cases hr : r.err with
    | some e => simp
    | none =>
      simp only [if_true, Nat.sub_zero, List.drop_drop]
      refine ⟨by congr 1; omega, by simp⟩

end Uavcan.SocketCan
