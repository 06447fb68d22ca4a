import Verif.Spec.Redundant
import Verif.Lemmas.SocketSend

/-!
# Lemmas about writing to a group of interfaces
-/

namespace Uavcan.SocketCan
open Spec

theorem sendAllTx_fst (dw : Bool) (ws : List Nat) (tx : Tx) (sizes : List Nat) (d : Nat) :
    (sendAllTx dw ws tx sizes d).map (·.1) = sendAll dw ws tx sizes d := by
  fun_induction sendAllTx dw ws tx sizes d with
  | case1 => rw [sendAll.eq_def]; rfl
  | case2 ws tx d b bs h ih => rw [sendAll.eq_def]; simp only [h, ih]
  | case3 ws tx d b bs e h => rw [sendAll.eq_def]; simp only [h, Option.map_some]
  | case4 tx d b bs h => rw [sendAll.eq_def]; simp only [h, Option.map_none]
  | case5 tx d b bs h w ws ih => rw [sendAll.eq_def]; simp only [h, ih]

theorem sendOne_taken {dw : Bool} {tx : Tx} {b : Nat} (h : sendOne dw tx b = .taken) : tx.room ≠ 0 ∧ tx.queue ≠ 0 := by
  unfold sendOne at h
  split at h
  · cases h
  · split at h
    · split at h <;> cases h
    · split at h
      · cases h
      · exact ⟨by assumption, by assumption⟩

/-- What a call leaves: as many frames are taken as it says, and others have left. -/
theorem sendAllTx_after {dw : Bool} {ws : List Nat} {tx : Tx} {sizes : List Nat} {d : Nat} {ans : SysAns} {tx' : Tx}
    (h : sendAllTx dw ws tx sizes d = some (ans, tx')) :
    ∃ t u, u ≤ ws.sum ∧ tx' = { tx with room := tx.room + u - t, queue := tx.queue + u - t } ∧ t ≤ tx.room + u ∧ t ≤ tx.queue + u ∧
      queued ans = d + t := by
  fun_induction sendAllTx dw ws tx sizes d with
  | case1 ws tx d =>
    cases h
    exact ⟨0, 0, by omega, rfl, by omega, by omega, by simp only [queued]; split <;> omega⟩
  | case2 ws tx d b bs h' ih =>
    obtain ⟨t, u, h1, h2, h3, h4, h5⟩ := ih h
    have := sendOne_taken h'
    simp only at h2 h3 h4
    refine ⟨t + 1, u, h1, ?_, by omega, by omega, by omega⟩
    rw [h2, show tx.room - 1 + u - t = tx.room + u - (t + 1) by omega, show tx.queue - 1 + u - t = tx.queue + u - (t + 1) by omega]
  | case3 ws tx d b bs e h' =>
    simp only [Option.some.injEq, Prod.mk.injEq] at h
    obtain ⟨rfl, rfl⟩ := h
    refine ⟨0, 0, by omega, rfl, by omega, by omega, ?_⟩
    by_cases hd : d = 0
    · subst hd; rw [if_pos rfl]; rfl
    · rw [if_neg hd]; simp only [queued]; split <;> omega
  | case4 => cases h
  | case5 tx d b bs h' w ws ih =>
    obtain ⟨t, u, h1, h2, h3, h4, h5⟩ := ih h
    simp only at h2 h3 h4
    refine ⟨t, w + u, by rw [List.sum_cons]; omega, ?_, by omega, by omega, h5⟩
    rw [h2, show tx.room + w + u - t = tx.room + (w + u) - t by omega, show tx.queue + w + u - t = tx.queue + (w + u) - t by omega]

/-- The result of `write`. -/
def resultOf (n : Nat) (ans : SysAns) : Result :=
  if ans.res ≤ 0 then (if ans.errno = ENOBUFS ∨ ans.errno = EAGAIN then .BufferFull else .Failure)
  else if ans.res.toNat < n then .SuccessPartial else .Success

/-- A call of `write` as the socket sees it. -/
def one (tx : Tx) (n : Nat) (wakes : List Nat) : Option (Result × Nat × Tx) :=
  if n = 0 then some (.BadArgument, 0, tx)
  else (sendAllTx false wakes tx (List.replicate n 72) 0).map fun p => (resultOf n p.1, queued p.1, p.2)

/-- The history without the interfaces' buffers. -/
def absRun (net : TxNet) (fds : List Int) : List TxEv → Option (List TxOut × TxNet)
  | [] => some ([], net)
  | .leave fd n :: evs => absRun (net.set fd ((net fd).leave n)) fds evs
  | .write k _ n wakes :: evs =>
    match fds[k]? with
    | none => (absRun net fds evs).map fun p => (⟨k, .BadArgument, 0⟩ :: p.1, p.2)
    | some fd =>
      match one (net fd) n wakes with
      | none => none
      | some (r, w, tx) => (absRun (net.set fd tx) fds evs).map fun p => (⟨k, r, w⟩ :: p.1, p.2)

/-- The descriptors of a group. -/
def txFds (g : Group) : List Int := g.interfaces.map Iface.fd

theorem write_fd {s : Iface} {frames : Vector FrameT FramesLen} {n : Nat} {ans : SysAns} {w : WriteOut}
    (h : s.write frames n ans = .ok w) : w.iface.fd = s.fd := by
  unfold Iface.write at h
  split at h
  · cases h; rfl
  · cases hl : writeLoop frames n 0 s.bufs with
    | ub u => rw [hl] at h; cases h
    | ok b =>
      rw [hl] at h
      simp only [bind, Outcome.bind, pure] at h
      split at h
      · split at h <;> (cases h; rfl)
      · split at h <;> (cases h; rfl)

theorem txFds_set {g : Group} {k : Nat} {i i' : Iface} (h : g.interfaces[k]? = some i) (hf : i'.fd = i.fd) :
    txFds ⟨g.interfaces.set k i'⟩ = txFds g := by
  unfold txFds
  simp only [List.map_set]
  apply List.ext_getElem?
  intro j
  rw [List.getElem?_set]
  by_cases hj : k = j
  · subst hj
    rw [if_pos rfl, List.getElem?_map, h, List.length_map, if_pos ((List.getElem?_eq_some_iff.1 h).1), Option.map_some, hf]
  · rw [if_neg hj]

theorem txStep_write (net : TxNet) (g : Group) (k : Nat) (frames : Vector FrameT FramesLen) (n : Nat) (wakes : List Nat) (h4 : n ≤ 4)
    {i : Iface} (hi : g.interfaces[k]? = some i) :
    match one (net i.fd) n wakes with
    | none => txStep net g (.write k frames n wakes) = .ok none
    | some (r, w, tx) => ∃ g', txFds g' = txFds g ∧ txStep net g (.write k frames n wakes) = .ok (some ([⟨k, r, w⟩], net.set i.fd tx, g')) := by
  by_cases h0 : n = 0
  · subst h0
    simp only [one, if_true]
    refine ⟨⟨g.interfaces.set k i⟩, txFds_set hi rfl, ?_⟩
    have hn : net.set i.fd (net i.fd) = net := by
      funext x; simp only [TxNet.set]; split <;> simp_all
    rw [hn]
    simp only [txStep, hi, Iface.sendCall, if_true, Group.write, Iface.write, bind, Outcome.bind, pure]
  · simp only [one, if_neg h0]
    obtain ⟨c, w0, hc, -, -, hsz, hdw, -⟩ := sendCall_ok i frames n ⟨0, 0⟩ (by omega) h4
    cases hs : sendAllTx false wakes (net i.fd) (List.replicate n 72) 0 with
    | none =>
      simp only [Option.map_none]
      simp only [txStep, hi, hc, hdw, hsz, hs, bind, Outcome.bind, pure]
    | some p =>
      obtain ⟨ans, tx⟩ := p
      simp only [Option.map_some]
      obtain ⟨c', w, hc', hw, -, -, -, hq, hr⟩ := sendCall_ok i frames n ans (by omega) h4
      refine ⟨⟨g.interfaces.set k w.iface⟩, txFds_set hi (write_fd hw), ?_⟩
      simp only [txStep, hi, hc, hdw, hsz, hs, bind, Outcome.bind, pure, Group.write, hw, hq, hr, resultOf]

theorem txRun_abs (evs : List TxEv) : ∀ (net : TxNet) (g : Group), ArraysOk evs →
    match absRun net (txFds g) evs with
    | none => txRun net g evs = .ok none
    | some (outs, net') => ∃ g', txFds g' = txFds g ∧ txRun net g evs = .ok (some (outs, net', g')) := by
  induction evs with
  | nil => intro net g _; exact ⟨g, rfl, rfl⟩
  | cons ev evs ih =>
    intro net g ha
    have ha' : ArraysOk evs := fun e he => ha e (List.mem_cons_of_mem _ he)
    cases ev with
    | leave fd n =>
      simp only [absRun]
      have := ih (net.set fd ((net fd).leave n)) g ha'
      cases hr : absRun (net.set fd ((net fd).leave n)) (txFds g) evs with
      | none =>
        rw [hr] at this
        simp only [txRun, txStep, bind, Outcome.bind, this, pure]
      | some p =>
        rw [hr] at this
        obtain ⟨g', h1, h2⟩ := this
        exact ⟨g', h1, by simp only [txRun, txStep, bind, Outcome.bind, h2, pure, List.nil_append]⟩
    | write k frames n wakes =>
      have h4 : n ≤ 4 := ha _ List.mem_cons_self
      simp only [absRun]
      cases hi : g.interfaces[k]? with
      | none =>
        have hf : (txFds g)[k]? = none := by simp [txFds, hi]
        have := ih net g ha'
        simp only [hf]
        cases hr : absRun net (txFds g) evs with
        | none =>
          rw [hr] at this
          simp only [Option.map_none, txRun, txStep, hi, Group.write, bind, Outcome.bind, this, pure]
        | some p =>
          rw [hr] at this
          obtain ⟨g', h1, h2⟩ := this
          exact ⟨g', h1, by simp only [txRun, txStep, hi, Group.write, bind, Outcome.bind, h2, pure, List.cons_append, List.nil_append]⟩
      | some i =>
        have hf : (txFds g)[k]? = some i.fd := by simp [txFds, hi]
        have hst := txStep_write net g k frames n wakes h4 hi
        simp only [hf]
        cases ho : one (net i.fd) n wakes with
        | none =>
          rw [ho] at hst
          simp only [txRun, hst, bind, Outcome.bind, pure]
        | some q =>
          obtain ⟨r, w, tx⟩ := q
          rw [ho] at hst
          obtain ⟨g1, e1, e2⟩ := hst
          have := ih (net.set i.fd tx) g1 ha'
          rw [e1] at this
          simp only
          cases hr : absRun (net.set i.fd tx) (txFds g) evs with
          | none =>
            rw [hr] at this
            simp only [Option.map_none, txRun, e2, bind, Outcome.bind, this, pure]
          | some p =>
            rw [hr] at this
            obtain ⟨g', h1, h2⟩ := this
            exact ⟨g', h1, by simp only [txRun, e2, bind, Outcome.bind, h2, pure, List.cons_append, List.nil_append]⟩

/-- The history as one interface sees it. -/
def solo (k : Nat) (fd : Int) (tx : Tx) : List TxEv → Option (List TxOut × Tx)
  | [] => some ([], tx)
  | .leave x n :: evs => solo k fd (if x = fd then tx.leave n else tx) evs
  | .write j _ n wakes :: evs =>
    if j = k then
      match one tx n wakes with
      | none => none
      | some (r, w, tx') => (solo k fd tx' evs).map fun p => (⟨k, r, w⟩ :: p.1, p.2)
    else solo k fd tx evs

theorem fds_ne {fds : List Int} (hn : fds.Nodup) {j k : Nat} {x fd : Int} (hj : fds[j]? = some x) (hk : fds[k]? = some fd) (h : j ≠ k) :
    fd ≠ x := by
  obtain ⟨a, rfl⟩ := List.getElem?_eq_some_iff.1 hj
  obtain ⟨b, rfl⟩ := List.getElem?_eq_some_iff.1 hk
  intro he
  exact h ((List.getElem_inj hn).1 he).symm

theorem solo_of_abs {fds : List Int} (hn : fds.Nodup) {k : Nat} {fd : Int} (hk : fds[k]? = some fd) (evs : List TxEv) :
    ∀ {net net' : TxNet} {outs : List TxOut}, absRun net fds evs = some (outs, net') →
      solo k fd (net fd) evs = some (outs.filter (·.k == k), net' fd) := by
  induction evs with
  | nil => intro net net' outs h; cases h; rfl
  | cons ev evs ih =>
    intro net net' outs h
    cases ev with
    | leave x n =>
      have := ih h
      simp only [solo]
      rw [← this]
      congr 1
      simp only [TxNet.set]
      by_cases hx : x = fd
      · subst hx; simp only [if_true]
      · rw [if_neg hx, if_neg (Ne.symm hx)]
    | write j fr n wakes =>
      simp only [absRun] at h
      by_cases hj : j = k
      · subst hj
        rw [hk] at h
        simp only at h
        simp only [solo, if_true]
        cases ho : one (net fd) n wakes with
        | none => rw [ho] at h; cases h
        | some q =>
          obtain ⟨r, w, tx⟩ := q
          rw [ho] at h
          simp only [Option.map_eq_some_iff] at h
          obtain ⟨⟨os, n2⟩, h1, h2⟩ := h
          simp only [Prod.mk.injEq] at h2
          obtain ⟨rfl, rfl⟩ := h2
          have := ih h1
          simp only [TxNet.set, if_true] at this
          simp only [this, Option.map_some, List.filter_cons, beq_self_eq_true, if_true]
      · simp only [solo, if_neg hj]
        cases hx : fds[j]? with
        | none =>
          rw [hx] at h
          simp only [Option.map_eq_some_iff] at h
          obtain ⟨⟨os, n2⟩, h1, h2⟩ := h
          simp only [Prod.mk.injEq] at h2
          obtain ⟨rfl, rfl⟩ := h2
          rw [ih h1, List.filter_cons, if_neg (by simpa using hj)]
        | some x =>
          rw [hx] at h
          simp only at h
          cases ho : one (net x) n wakes with
          | none => rw [ho] at h; cases h
          | some q =>
            obtain ⟨r, w, tx⟩ := q
            rw [ho] at h
            simp only [Option.map_eq_some_iff] at h
            obtain ⟨⟨os, n2⟩, h1, h2⟩ := h
            simp only [Prod.mk.injEq] at h2
            obtain ⟨rfl, rfl⟩ := h2
            have := ih h1
            simp only [TxNet.set, if_neg (fds_ne hn hx hk hj)] at this
            rw [this, List.filter_cons, if_neg (by simpa using hj)]

theorem solo_stops {fds : List Int} (hn : fds.Nodup) (evs : List TxEv) :
    ∀ {net : TxNet}, absRun net fds evs = none → ∃ (k : Nat) (fd : Int), fds[k]? = some fd ∧ solo k fd (net fd) evs = none := by
  induction evs with
  | nil => intro net h; cases h
  | cons ev evs ih =>
    intro net h
    cases ev with
    | leave x n =>
      obtain ⟨k, fd, hk, hs⟩ := ih h
      refine ⟨k, fd, hk, ?_⟩
      simp only [solo]
      rw [← hs]
      congr 1
      simp only [TxNet.set]
      by_cases hx : x = fd
      · subst hx; simp only [if_true]
      · rw [if_neg hx, if_neg (Ne.symm hx)]
    | write j fr n wakes =>
      simp only [absRun] at h
      cases hx : fds[j]? with
      | none =>
        rw [hx] at h
        simp only [Option.map_eq_none_iff] at h
        obtain ⟨k, fd, hk, hs⟩ := ih h
        have hj : j ≠ k := by rintro rfl; rw [hx] at hk; cases hk
        exact ⟨k, fd, hk, by simp only [solo, if_neg hj, hs]⟩
      | some x =>
        rw [hx] at h
        simp only at h
        cases ho : one (net x) n wakes with
        | none => exact ⟨j, x, hx, by simp only [solo, if_true, ho]⟩
        | some q =>
          obtain ⟨r, w, tx⟩ := q
          rw [ho] at h
          simp only [Option.map_eq_none_iff] at h
          obtain ⟨k, fd, hk, hs⟩ := ih h
          refine ⟨k, fd, hk, ?_⟩
          by_cases hj : j = k
          · subst hj
            rw [hx] at hk
            cases hk
            simp only [TxNet.set, if_true] at hs
            simp only [solo, if_true, ho, hs, Option.map_none]
          · simp only [TxNet.set, if_neg (fds_ne hn hx hk hj)] at hs
            simp only [solo, if_neg hj, hs]

theorem solo_filter (k : Nat) (fd : Int) (evs : List TxEv) : ∀ tx, solo k fd tx (evs.filter (·.isOf k fd)) = solo k fd tx evs := by
  induction evs with
  | nil => intro tx; rfl
  | cons ev evs ih =>
    intro tx
    cases ev with
    | leave x n =>
      by_cases hx : x = fd
      · rw [List.filter_cons, if_pos (by simpa [TxEv.isOf] using hx)]
        simp only [solo, ih]
      · rw [List.filter_cons, if_neg (by simpa [TxEv.isOf] using hx)]
        simp only [solo, ih, if_neg hx]
    | write j fr n wakes =>
      by_cases hj : j = k
      · rw [List.filter_cons, if_pos (by simpa [TxEv.isOf] using hj)]
        simp only [solo, ih]
      · rw [List.filter_cons, if_neg (by simpa [TxEv.isOf] using hj)]
        simp only [solo, ih, if_neg hj]

theorem solo_other {k j : Nat} {fd x : Int} (h : j ≠ k) (evs : List TxEv) :
    ∀ tx, solo j x tx (evs.filter (·.isOf k fd)) ≠ none := by
  induction evs with
  | nil => intro tx h; cases h
  | cons ev evs ih =>
    intro tx
    rw [List.filter_cons]
    split
    · rename_i ho
      cases ev with
      | leave y n => exact ih _
      | write i fr n wakes =>
        have : i = k := by simpa [TxEv.isOf] using ho
        subst this
        simp only [solo, if_neg (Ne.symm h)]
        exact ih _
    · exact ih _

theorem one_none_iff {tx : Tx} (hu : Tx.Usual tx) (n : Nat) (wakes : List Nat) :
    one tx n wakes = none ↔ tx.room ≤ tx.queue ∧ tx.room + wakes.sum < n := by
  have hb : tx.nonblock = false := by rw [hu.1]; decide
  have hf : Tx.Fd tx := hu.2
  unfold one
  by_cases h0 : n = 0
  · rw [if_pos h0]; simp [h0]
  · rw [if_neg h0, Option.map_eq_none_iff]
    rw [← Option.map_eq_none_iff (f := (·.1)), sendAllTx_fst]
    by_cases hq : tx.room ≤ tx.queue
    · obtain ⟨i1, i2⟩ := sendAll_room wakes n tx 0 _ hf hb hq rfl
      constructor
      · intro h
        refine ⟨hq, ?_⟩
        by_cases hn : n ≤ tx.room + wakes.sum
        · rw [i1 hn] at h; cases h
        · omega
      · exact fun h => i2 h.2
    · obtain ⟨i1, i2, i3⟩ := sendAll_queue wakes n tx 0 hf hb (by omega)
      refine ⟨fun h => ?_, fun h => absurd h.1 hq⟩
      by_cases hn : n ≤ tx.queue
      · rw [i1 hn] at h; cases h
      · by_cases hz : 0 + tx.queue = 0
        · rw [i2 (by omega) hz] at h; cases h
        · rw [i3 (by omega) hz] at h; cases h

/-- What a call that returns leaves. -/
theorem one_some {tx tx' : Tx} (hu : Tx.Usual tx) {n : Nat} {wakes : List Nat} {r : Result} {w : Nat} (h : one tx n wakes = some (r, w, tx')) :
    w = (if tx.room ≤ tx.queue then n else min n tx.queue) ∧
    ∃ u, u ≤ wakes.sum ∧ tx' = { tx with room := tx.room + u - w, queue := tx.queue + u - w } ∧ w ≤ tx.room + u ∧ w ≤ tx.queue + u := by
  have hb : tx.nonblock = false := by rw [hu.1]; decide
  have hf : Tx.Fd tx := hu.2
  unfold one at h
  by_cases h0 : n = 0
  · rw [if_pos h0] at h
    simp only [Option.some.injEq, Prod.mk.injEq] at h
    obtain ⟨-, rfl, rfl⟩ := h
    subst h0
    exact ⟨by split <;> omega, 0, by omega, rfl, by omega, by omega⟩
  · rw [if_neg h0, Option.map_eq_some_iff] at h
    obtain ⟨⟨ans, t1⟩, h1, h2⟩ := h
    simp only [Prod.mk.injEq] at h2
    obtain ⟨-, rfl, rfl⟩ := h2
    obtain ⟨t, u, a1, a2, a3, a4, a5⟩ := sendAllTx_after h1
    rw [Nat.zero_add] at a5
    have hs : sendAll false wakes tx (List.replicate n 72) 0 = some ans := by rw [← sendAllTx_fst, h1]; rfl
    refine ⟨?_, u, a1, by rw [a5]; exact a2, by rw [a5]; exact a3, by rw [a5]; exact a4⟩
    by_cases hq : tx.room ≤ tx.queue
    · rw [if_pos hq]
      obtain ⟨i1, i2⟩ := sendAll_room wakes n tx 0 _ hf hb hq rfl
      by_cases hn : n ≤ tx.room + wakes.sum
      · rw [i1 hn] at hs
        cases hs
        simp only [queued]; split <;> omega
      · rw [i2 (by omega)] at hs; cases hs
    · rw [if_neg hq]
      obtain ⟨i1, i2, i3⟩ := sendAll_queue wakes n tx 0 hf hb (by omega)
      by_cases hn : n ≤ tx.queue
      · rw [i1 hn] at hs
        cases hs
        simp only [queued]; split <;> omega
      · by_cases hz : 0 + tx.queue = 0
        · rw [i2 (by omega) hz] at hs
          cases hs
          rw [show queued { res := -1, errno := 105 } = 0 by decide]
          omega
        · rw [i3 (by omega) hz] at hs
          cases hs
          simp only [queued]; split <;> omega

/-- The result of a call that returns. -/
theorem one_result {tx tx' : Tx} (hu : Tx.Usual tx) {n : Nat} (h0 : n ≠ 0) {wakes : List Nat} {r : Result} {w : Nat}
    (h : one tx n wakes = some (r, w, tx')) : r = if w = 0 then .BufferFull else if w < n then .SuccessPartial else .Success := by
  have hb : tx.nonblock = false := by rw [hu.1]; decide
  have hf : Tx.Fd tx := hu.2
  have hq := (one_some hu h).1
  unfold one at h
  rw [if_neg h0, Option.map_eq_some_iff] at h
  obtain ⟨⟨ans, t1⟩, h1, h2⟩ := h
  simp only [Prod.mk.injEq] at h2
  obtain ⟨rfl, rfl, rfl⟩ := h2
  have hs : sendAll false wakes tx (List.replicate n 72) 0 = some ans := by rw [← sendAllTx_fst, h1]; rfl
  have pos : ∀ m : Nat, m ≠ 0 → ans = { res := (m : Int), errno := 0 } →
      resultOf n ans = if queued ans = 0 then .BufferFull else if queued ans < n then .SuccessPartial else .Success := by
    rintro m hm rfl
    have e : queued { res := (m : Int), errno := 0 } = m := by simp only [queued]; split <;> omega
    rw [e, if_neg hm]
    simp only [resultOf]
    rw [if_neg (by omega), Int.toNat_natCast]
  by_cases hq : tx.room ≤ tx.queue
  · obtain ⟨i1, i2⟩ := sendAll_room wakes n tx 0 _ hf hb hq rfl
    by_cases hn : n ≤ tx.room + wakes.sum
    · rw [i1 hn] at hs
      exact pos (0 + n) (by omega) (by cases hs; rfl)
    · rw [i2 (by omega)] at hs; cases hs
  · obtain ⟨i1, i2, i3⟩ := sendAll_queue wakes n tx 0 hf hb (by omega)
    by_cases hn : n ≤ tx.queue
    · rw [i1 hn] at hs
      exact pos (0 + n) (by omega) (by cases hs; rfl)
    · by_cases hz : 0 + tx.queue = 0
      · rw [i2 (by omega) hz] at hs
        cases hs
        rfl
      · rw [i3 (by omega) hz] at hs
        exact pos (0 + tx.queue) hz (by cases hs; rfl)

theorem usual_one {tx tx' : Tx} (hu : Tx.Usual tx) {n : Nat} {wakes : List Nat} {r : Result} {w : Nat} (h : one tx n wakes = some (r, w, tx')) :
    Tx.Usual tx' := by
  obtain ⟨-, u, -, rfl, -⟩ := one_some hu h
  exact hu

theorem solo_dead {k : Nat} {fd : Int} (evs : List TxEv) : ∀ {tx : Tx}, Tx.Usual tx → Dead k fd evs →
    (solo k fd tx evs = none ↔ tx.room ≤ tx.queue ∧ tx.room < framesFor k evs) := by
  induction evs with
  | nil => intro tx _ _; simp [solo, framesFor]
  | cons ev evs ih =>
    intro tx hu hd
    have hd' : Dead k fd evs := fun e he => hd e (List.mem_cons_of_mem _ he)
    have h1 := hd _ List.mem_cons_self
    cases ev with
    | leave x n =>
      simp only [solo, framesFor]
      have : (if x = fd then tx.leave n else tx) = tx := by
        split
        · rename_i hx
          have : n = 0 := h1 (by simpa [TxEv.isOf] using hx)
          subst this
          rfl
        · rfl
      rw [this]
      exact ih hu hd'
    | write j fr n wakes =>
      simp only [solo, framesFor]
      by_cases hj : j = k
      · have hz : wakes.sum = 0 := h1 (by simpa [TxEv.isOf] using hj)
        rw [if_pos hj, if_pos hj]
        have hn := one_none_iff hu n wakes
        cases ho : one tx n wakes with
        | none =>
          have := hn.1 ho
          simp only [true_iff]
          omega
        | some q =>
          obtain ⟨r, w, tx'⟩ := q
          obtain ⟨a1, u, a2, a3, a4, a5⟩ := one_some hu ho
          have hi := ih (usual_one hu ho) hd'
          rw [ho] at hn
          simp only [reduceCtorEq, false_iff] at hn
          have b1 : tx'.room = tx.room + u - w := by rw [a3]
          have b2 : tx'.queue = tx.queue + u - w := by rw [a3]
          simp only [Option.map_eq_none_iff, hi]
          split at a1 <;> omega
      · rw [if_neg hj, if_neg hj, Nat.zero_add]
        exact ih hu hd'

theorem solo_live {k : Nat} {fd : Int} (evs : List TxEv) : ∀ {tx : Tx}, Tx.Usual tx → Live k evs → solo k fd tx evs ≠ none := by
  induction evs with
  | nil => intro tx _ _ h; cases h
  | cons ev evs ih =>
    intro tx hu hl
    have hl' : Live k evs := fun e he => hl e (List.mem_cons_of_mem _ he)
    have h1 := hl _ List.mem_cons_self
    cases ev with
    | leave x n =>
      simp only [solo]
      apply ih _ hl'
      split
      · exact hu
      · exact hu
    | write j fr n wakes =>
      simp only [solo]
      by_cases hj : j = k
      · rw [if_pos hj]
        have := h1 hj
        have hn := one_none_iff hu n wakes
        cases ho : one tx n wakes with
        | none => have := hn.1 ho; omega
        | some q =>
          obtain ⟨r, w, tx'⟩ := q
          simp only [ne_eq, Option.map_eq_none_iff]
          exact ih (usual_one hu ho) hl'
      · rw [if_neg hj]
        exact ih hu hl'

end Uavcan.SocketCan
