import Verif.Spec.Drain
import Verif.Props.SocketSend
import Verif.Props.SocketCan

/-!
# C109: every received frame is delivered once, and `SuccessNothing` means that nothing was
-/

namespace Uavcan.SocketCan
open Spec Can

theorem allFrom_append {a b : List RxMsg} {x y : List FrameT} (h : AllFrom a x) (h' : AllFrom b y) : AllFrom (a ++ b) (x ++ y) := by
  refine ⟨by simp [h.1, h'.1], fun i m f hm hf => ?_⟩
  by_cases hi : i < a.length
  · rw [List.getElem?_append_left hi] at hm
    rw [List.getElem?_append_left (by rw [← h.1]; exact hi)] at hf
    exact h.2 i m f hm hf
  · rw [List.getElem?_append_right (by omega)] at hm
    rw [List.getElem?_append_right (by have := h.1; omega), ← h.1] at hf
    exact h'.2 _ m f hm hf

/-- The answer of the kernel to `read`. -/
theorem answer_eq (r : RxSock) : r.answer = some (match r.err with
    | some e => ({ res := -1, errno := e, msgs := [] }, { r with err := none })
    | none => if r.queue = [] then ({ res := -1, errno := 11, msgs := [] }, r)
        else ({ res := ((r.queue.take 4).length : Nat), errno := 0, msgs := r.queue.take 4 }, { r with queue := r.queue.drop 4 })) := by
  obtain ⟨q, err⟩ := r
  unfold RxSock.answer
  cases err with
  | some e => rfl
  | none =>
    have hd : DontWait recvCall.flags = true := by decide
    have h := recvAll_dontwait (Nonblocking socketType) [] 4 q [] (by simp)
    have hr : recvmmsg (Nonblocking socketType) [] q recvCall = recvAll true (Nonblocking socketType) [] q 4 [] := by
      rw [← hd]; rfl
    simp only [hr, h, List.nil_append]
    by_cases hq : q = []
    · simp [hq]
    · have hne : q.take 4 ≠ [] := by
        cases hq' : q with
        | nil => exact absurd hq' hq
        | cons m ms => simp
      rw [if_neg hne, if_neg hq]
      simp only [Option.map_some, Option.some.injEq, Prod.mk.injEq, true_and, RxSock.mk.injEq, and_true]
      by_cases hl : 4 ≤ q.length
      · rw [List.length_take, Nat.min_eq_left hl]
      · rw [List.length_take, Nat.min_eq_right (by omega), List.drop_length, List.drop_eq_nil_of_le (by omega)]

/-- One call of `read`. -/
theorem read_once (r : RxSock) (he : ∀ e, r.err = some e → e ≠ 11) (s : Iface) (out : Vector FrameT FramesLen) :
    ∃ ans r1 o, r.answer = some (ans, r1) ∧ s.read out ans = .ok o ∧ r1.err = none ∧
      ∃ taken, r.queue = taken ++ r1.queue ∧
        AllFrom (taken.filter fun m => Delivers m.frame.can_id) (o.out_frames.toList.take o.read) ∧
        (o.result = .Success ↔ r.err = none ∧ r.queue ≠ []) ∧ (o.result = .SuccessNothing ↔ r.err = none ∧ r.queue = []) ∧
        (o.result = .UnknownInternalError ↔ r.err ≠ none) ∧
        (o.result = .Success → taken = r.queue.take 4) ∧ (o.result ≠ .Success → taken = []) := by
  have ha := answer_eq r
  cases hr : r.err with
  | some e =>
    rw [hr] at ha
    have hv : ValidRecv { res := -1, errno := e, msgs := [] } := ⟨by simp only; omega, fun h => by simp only at h; omega⟩
    obtain ⟨o, h1, h2, -⟩ := read_ok s out _ hv
    obtain ⟨a, b, c, d⟩ := h2 (by simp only; omega)
    have hne : ¬ ((-1 : Int) < 0 ∧ e = EAGAIN) := fun h => he e hr h.2
    rw [if_neg hne] at d
    refine ⟨_, _, o, ha, h1, rfl, [], rfl, ?_, ?_⟩
    · rw [a]; exact ⟨rfl, fun i m f hm => by simp at hm⟩
    · rw [d]; simp
  | none =>
    rw [hr] at ha
    by_cases hq : r.queue = []
    · rw [if_pos hq] at ha
      have hv : ValidRecv { res := -1, errno := 11, msgs := [] } := ⟨by decide, fun h => absurd h (by decide)⟩
      obtain ⟨o, h1, h2, -⟩ := read_ok s out _ hv
      obtain ⟨a, b, c, d⟩ := h2 (by decide)
      rw [if_pos ⟨by decide, rfl⟩] at d
      refine ⟨_, _, o, ha, h1, hr, [], rfl, ?_, ?_⟩
      · rw [a]; exact ⟨rfl, fun i m f hm => by simp at hm⟩
      · rw [d]; simp [hq]
    · rw [if_neg hq] at ha
      have hpos : 0 < (r.queue.take 4).length := by
        rw [List.length_take]
        have := List.length_pos_iff.2 hq
        omega
      have hv : ValidRecv { res := ((r.queue.take 4).length : Nat), errno := 0, msgs := r.queue.take 4 } := by
        refine ⟨?_, fun _ => rfl⟩
        simp only [List.length_take]; omega
      obtain ⟨o, h1, -, h2⟩ := read_ok s out _ hv
      obtain ⟨a, b, c, d, e, f⟩ := h2 (by simp only; omega)
      refine ⟨_, _, o, ha, h1, rfl, r.queue.take 4, (List.take_append_drop 4 r.queue).symm, ?_, ?_⟩
      · have hlen : o.read ≤ 4 := by
          rw [b]; exact Nat.le_trans (List.length_filter_le _ _) c
        refine ⟨?_, ?_⟩
        · have h64 : o.out_frames.toList.length = 4 := by simp [FramesLen]
          rw [List.length_take, h64, Nat.min_eq_left hlen, b]; rfl
        · intro i m fr hm hf
          have hi : i < o.read := by
            rw [b]
            exact (List.getElem?_eq_some_iff.1 hm).1
          rw [List.getElem?_take_of_lt hi] at hf
          obtain ⟨hi', hm'⟩ := List.getElem?_eq_some_iff.1 hm
          obtain ⟨hj', hf'⟩ := List.getElem?_eq_some_iff.1 hf
          obtain ⟨x1, x2, -, x4⟩ := e i hi' (by omega)
          have e1 : (delivered (r.queue.take 4))[i]'hi' = m := hm'
          have e2 : o.out_frames[i]'(by show i < 4; omega) = fr := by rw [← hf']; simp
          rw [e1, e2] at x1 x2 x4
          exact ⟨x1, x2, x4⟩
      · rw [a]; simp [hq]

/-- The error of the socket, if there is one, is not `EAGAIN`. -/
def RealErr (r : RxSock) : Prop := ∀ e, r.err = some e → e ≠ 11

theorem serves_append {e1 e2 : List RxEv} {r r' : RxSock} {s s' : Iface} {outs : List (Result × List FrameT)}
    (h : Serves r s (e1 ++ e2) outs r' s') :
    ∃ r1 s1 o1 o2, outs = o1 ++ o2 ∧ Serves r s e1 o1 r1 s1 ∧ Serves r1 s1 e2 o2 r' s' := by
  induction e1 generalizing r s outs with
  | nil => exact ⟨r, s, [], outs, rfl, .nil r s, h⟩
  | cons ev e1 ih =>
    cases h with
    | arrive h => obtain ⟨r1, s1, o1, o2, a, b, c⟩ := ih h; exact ⟨r1, s1, o1, o2, a, .arrive b, c⟩
    | fail h => obtain ⟨r1, s1, o1, o2, a, b, c⟩ := ih h; exact ⟨r1, s1, o1, o2, a, .fail b, c⟩
    | read h1 h2 h =>
      obtain ⟨r1, s1, o1, o2, a, b, c⟩ := ih h
      exact ⟨r1, s1, _ :: o1, o2, by rw [a]; rfl, .read h1 h2 b, c⟩

theorem serves_realErr {r r' : RxSock} {s s' : Iface} {evs : List RxEv} {outs : List (Result × List FrameT)}
    (h : Serves r s evs outs r' s') (he : RealErr r) : RealErr r' := by
  induction h with
  | nil => exact he
  | arrive _ ih => exact ih he
  | @fail _ _ _ _ e hne _ _ _ ih => exact ih fun e' h => by cases h; exact hne
  | @read r r1 _ s _ out _ _ _ _ h1 h2 _ ih =>
    obtain ⟨ans, r1', o, a, b, c, -⟩ := read_once r he s out
    rw [h1] at a
    cases a
    exact ih fun e h => by rw [c] at h; cases h

/-- The property as stated in `properties.jsonl`: every message that `read` can deliver at all (C39) is delivered once and in order,
and a successful `read` says `SuccessNothing` exactly if it delivers nothing. -/
def C109_Statement : Prop :=
  ∀ (r r' : RxSock) (s s' : Iface) (evs : List RxEv) (outs : List (Result × List FrameT)), RealErr r → Serves r s evs outs r' s' →
    (∃ taken, r.queue ++ arrived evs = taken ++ r'.queue ∧
      AllFrom (taken.filter fun m => Delivers m.frame.can_id) (outs.flatMap (·.2))) ∧
    ∀ p ∈ outs, p.1.isSuccess = true → (p.1 = .SuccessNothing ↔ p.2 = [])

/-- An error message (bus off). -/
def busOffMsg : RxMsg := ⟨true, ⟨0x20000040, 8, 0, 0, 0, Vector.replicate 64 0⟩, []⟩

/-- A frame of data, not longer than 8 bytes. -/
def dataMsg (id : BitVec 29) (len : BitVec 8) : RxMsg :=
  ⟨true, ⟨0x80000000 ||| id.setWidth 32, len, 0, 0, 0, Vector.replicate 64 0⟩, []⟩

/-- Four frames wait. -/
def fourWait : RxSock := ⟨[dataMsg 1 8, busOffMsg, dataMsg 2 3, dataMsg 3 0], none⟩

/-- Two more arrive between calls, and the network interface goes down (`ENETDOWN`). -/
def busyDay (out : Vector FrameT FramesLen) : List RxEv :=
  [.read out, .arrive [dataMsg 4 1], .fail 100 (by decide), .read out, .arrive [dataMsg 5 2], .read out, .read out]

/-- C109: whatever arrives and fails meanwhile, calls of `read` always return. -/
theorem C109_total (r : RxSock) (he : RealErr r) (s : Iface) (evs : List RxEv) : ∃ outs r' s', Serves r s evs outs r' s' := by
  induction evs generalizing r s with
  | nil => exact ⟨[], r, s, .nil r s⟩
  | cons ev evs ih =>
    cases ev with
    | arrive ms =>
      obtain ⟨o, r', s', h⟩ := ih { r with queue := r.queue ++ ms } he s
      exact ⟨o, r', s', .arrive h⟩
    | fail e hne =>
      obtain ⟨o, r', s', h⟩ := ih { r with err := some e } (fun e' h => by cases h; exact hne) s
      exact ⟨o, r', s', .fail h⟩
    | read out =>
      obtain ⟨ans, r1, o, a, b, c, -⟩ := read_once r he s out
      obtain ⟨os, r', s', h⟩ := ih r1 (fun e h => by rw [c] at h; cases h) o.iface
      exact ⟨_, r', s', .read a b h⟩

example (s : Iface) (out : Vector FrameT FramesLen) : ∃ outs r' s', Serves fourWait s (busyDay out) outs r' s' :=
  C109_total _ (fun e h => by cases h) s _

/-- C109, partial: in every history of arrived, errors and calls, the messages that were waiting or arrived are those taken by the
calls, in order, and those still waiting; and the frames delivered by all calls together are exactly the deliverable ones among those
taken: none is lost, none comes twice. Missing: `SuccessNothing`, see below. -/
theorem C109_once_partial {r r' : RxSock} {s s' : Iface} {evs : List RxEv} {outs : List (Result × List FrameT)}
    (h : Serves r s evs outs r' s') (he : RealErr r) :
    ∃ taken, r.queue ++ arrived evs = taken ++ r'.queue ∧
      AllFrom (taken.filter fun m => Delivers m.frame.can_id) (outs.flatMap (·.2)) := by
  induction h with
  | nil => exact ⟨[], by simp [arrived], rfl, fun i m f hm => by simp at hm⟩
  | arrive _ ih =>
    obtain ⟨t, a, b⟩ := ih he
    exact ⟨t, by rw [← a, arrived, List.append_assoc], b⟩
  | @fail _ _ _ _ e hne _ _ _ ih =>
    obtain ⟨t, a, b⟩ := ih fun e' h => by cases h; exact hne
    exact ⟨t, a, b⟩
  | @read r r1 _ s _ out ans o _ _ h1 h2 _ ih =>
    obtain ⟨ans', r1', o', a, b, c, t, d, e, -⟩ := read_once r he s out
    rw [h1] at a
    cases a
    rw [h2] at b
    cases b
    obtain ⟨t', a', b'⟩ := ih fun e h => by rw [c] at h; cases h
    refine ⟨t ++ t', ?_, ?_⟩
    · rw [d, List.append_assoc, List.append_assoc, ← a']; rfl
    · rw [List.filter_append, List.flatMap_cons]
      exact allFrom_append e b'

/-- Three of the four messages that wait, and the two that arrive. -/
example (s s' : Iface) (out : Vector FrameT FramesLen) (outs : List (Result × List FrameT)) (r' : RxSock)
    (h : Serves fourWait s (busyDay out) outs r' s') (hq : r'.queue = []) : (outs.flatMap (·.2)).length = 5 := by
  obtain ⟨t, a, b⟩ := C109_once_partial h (fun e h => by cases h)
  rw [hq, List.append_nil] at a
  rw [← b.1, ← a]
  rfl

/-- C109, partial: what a call of `read` says: `UnknownInternalError` exactly if the socket has an error, which is then forgotten
and no message with it; otherwise `SuccessNothing` exactly if no message waits, of whatever kind; otherwise `Success`, and the first
four messages are taken. -/
theorem C109_results_partial (r : RxSock) (he : RealErr r) (s : Iface) (out : Vector FrameT FramesLen) :
    ∃ res fs r' s', Serves r s [.read out] [(res, fs)] r' s' ∧ r'.err = none ∧
      (res = .UnknownInternalError ↔ r.err ≠ none) ∧ (res = .SuccessNothing ↔ r.err = none ∧ r.queue = []) ∧
      (res = .Success ↔ r.err = none ∧ r.queue ≠ []) ∧
      r'.queue = (if res = .Success then r.queue.drop 4 else r.queue) ∧
      AllFrom ((if res = .Success then r.queue.take 4 else []).filter fun m => Delivers m.frame.can_id) fs := by
  obtain ⟨ans, r1, o, a, b, c, t, d, e, f1, f2, f3, f4, f5⟩ := read_once r he s out
  refine ⟨o.result, _, r1, o.iface, .read a b (.nil _ _), c, f3, f2, f1, ?_, ?_⟩
  · by_cases hs : o.result = .Success
    · rw [if_pos hs]
      have ht := f4 hs
      have : r.queue.take 4 ++ r.queue.drop 4 = r.queue.take 4 ++ r1.queue := by rw [List.take_append_drop, ← ht]; exact d
      exact (List.append_cancel_left this).symm
    · rw [if_neg hs, d, f5 hs]; rfl
  · by_cases hs : o.result = .Success
    · rw [if_pos hs, ← f4 hs]; exact e
    · rw [if_neg hs, ← f5 hs]; exact e

example (s : Iface) (out : Vector FrameT FramesLen) : ∃ fs r' s', Serves fourWait s [.read out] [(.Success, fs)] r' s' ∧ fs.length = 3 := by
  obtain ⟨res, fs, r', s', h1, h2, h3, h4, h5, h6, h7⟩ := C109_results_partial fourWait (fun e h => by cases h) s out
  have := h5.2 ⟨rfl, by simp [fourWait]⟩
  subst this
  exact ⟨fs, r', s', h1, by rw [← h7.1]; rfl⟩

/-- C109: an application that reads until `SuccessNothing` has everything that had arrived. -/
theorem C109_until_nothing {r r' : RxSock} {s s' : Iface} {evs : List RxEv} {out : Vector FrameT FramesLen} {fs : List FrameT}
    {outs : List (Result × List FrameT)} (h : Serves r s (evs ++ [.read out]) (outs ++ [(.SuccessNothing, fs)]) r' s')
    (he : RealErr r) :
    AllFrom ((r.queue ++ arrived evs).filter fun m => Delivers m.frame.can_id) (outs.flatMap (·.2)) ∧ fs = [] := by
  obtain ⟨r1, s1, o1, o2, a, b, c⟩ := serves_append h
  have he1 := serves_realErr b he
  cases c with
  | read h1 h2 h3 =>
    cases h3
    obtain ⟨a1, a2⟩ := List.append_inj' a rfl
    subst a1
    simp only [List.cons.injEq, Prod.mk.injEq, and_true] at a2
    obtain ⟨hres, hfs⟩ := a2
    obtain ⟨t, d, e⟩ := C109_once_partial b he
    obtain ⟨ans', r1', o', x1, x2, x3, t', x4, x5, y1, y2, y3, y4, y5⟩ := read_once r1 he1 s1 out
    rw [h1] at x1
    cases x1
    rw [h2] at x2
    cases x2
    have hn := (y2.1 hres.symm).2
    rw [hn, List.append_nil] at d
    rw [d]
    refine ⟨e, ?_⟩
    have := y5 (by rw [← hres]; decide)
    rw [this] at x5
    rw [hfs]
    exact List.eq_nil_of_length_eq_zero x5.1.symm

/-- C109: if nothing arrives any more, a quarter as many calls as messages wait empty the queue, and the next says so. -/
theorem C109_drained {r r' : RxSock} {s s' : Iface} {arrs : List (Vector FrameT FramesLen)} {outs : List (Result × List FrameT)}
    (h : Serves r s (arrs.map .read) outs r' s') (he : r.err = none) :
    outs.length = arrs.length ∧ r'.queue = r.queue.drop (4 * arrs.length) ∧
      ∀ (i : Nat) (p : Result × List FrameT), outs[i]? = some p →
        p.1 = if 4 * i < r.queue.length then .Success else .SuccessNothing := by
  induction arrs generalizing r s outs with
  | nil => cases h; exact ⟨rfl, by simp, fun i p hp => by simp at hp⟩
  | cons o arrs ih =>
    cases h with
    | @read _ r1 _ _ _ _ _ _ _ _ h1 h2 h3 =>
      have hre : RealErr r := fun e h => by rw [he] at h; cases h
      obtain ⟨ans', r1', o', x1, x2, x3, t', x4, x5, y1, y2, y3, y4, y5⟩ := read_once r hre s o
      rw [h1] at x1
      cases x1
      rw [h2] at x2
      cases x2
      obtain ⟨i1, i2, i3⟩ := ih h3 x3
      have hq : r1.queue = r.queue.drop 4 := by
        by_cases hq : r.queue = []
        · have := y5 (by rw [y2.2 ⟨he, hq⟩]; decide)
          rw [this, hq] at x4
          rw [hq, ← List.nil_append r1.queue, ← x4]
          rfl
        · have ht := y4 (y1.2 ⟨he, hq⟩)
          have : r.queue.take 4 ++ r.queue.drop 4 = r.queue.take 4 ++ r1.queue := by rw [List.take_append_drop, ← ht]; exact x4
          exact (List.append_cancel_left this).symm
      refine ⟨by simp [i1], ?_, ?_⟩
      · rw [i2, hq, List.drop_drop, List.length_cons]
        congr 1
        omega
      · intro i p hp
        cases i with
        | zero =>
          simp only [List.getElem?_cons_zero, Option.some.injEq] at hp
          subst hp
          by_cases hq : r.queue = []
          · rw [if_neg (by simp [hq])]; exact y2.2 ⟨he, hq⟩
          · rw [if_pos (by have := List.length_pos_iff.2 hq; omega)]; exact y1.2 ⟨he, hq⟩
        | succ i =>
          rw [List.getElem?_cons_succ] at hp
          rw [i3 i p hp, hq, List.length_drop]
          by_cases hl : 4 * (i + 1) < r.queue.length
          · rw [if_pos hl, if_pos (by omega)]
          · rw [if_neg hl, if_neg (by omega)]

/-- Four messages take one call; the second says that there is nothing more, and the first has got everything. -/
example (s : Iface) (out : Vector FrameT FramesLen) : ∃ fs r' s',
    Serves fourWait s ([out].map .read ++ [.read out]) ([(.Success, fs)] ++ [(.SuccessNothing, [])]) r' s' ∧ fs.length = 3 := by
  obtain ⟨outs, r', s', h⟩ := C109_total fourWait (fun e h => by cases h) s ([out, out].map .read)
  obtain ⟨h1, -, h3⟩ := C109_drained h rfl
  match outs, h1, h, h3 with
  | [a, b], _, h, h3 =>
    obtain ⟨ra, fa⟩ := a
    obtain ⟨rb, fb⟩ := b
    have ha : ra = .Success := h3 0 _ rfl
    have hb : rb = .SuccessNothing := h3 1 _ rfl
    subst ha
    subst hb
    obtain ⟨hf, hn⟩ := C109_until_nothing (evs := [.read out]) (outs := [(.Success, fa)]) h (fun e h => by cases h)
    subst hn
    refine ⟨fa, r', s', h, ?_⟩
    have := hf.1
    simp only [List.flatMap_cons, List.flatMap_nil, List.append_nil] at this
    rw [← this]
    rfl

/-- C109 is false of the code: an error message makes `read` say `Success` although it delivers nothing. Worse, with four error
messages in front, a frame that waits is not delivered: an application that stops reading when it got nothing misses it. -/
theorem C109_full_statement_fails : ¬ C109_Statement ∧
    ∀ (s : Iface) (out : Vector FrameT FramesLen), ∃ r' s',
      Serves ⟨[busOffMsg, busOffMsg, busOffMsg, busOffMsg, dataMsg 5 8], none⟩ s [.read out] [(.Success, [])] r' s' ∧
        r'.queue = [dataMsg 5 8] ∧ Delivers (dataMsg 5 8).frame.can_id = true := by
  have key : ∀ (q : List RxMsg), q ≠ [] → (q.take 4).filter (fun m => Delivers m.frame.can_id) = [] →
      ∀ (s : Iface) (out : Vector FrameT FramesLen), ∃ r' s', Serves ⟨q, none⟩ s [.read out] [(.Success, [])] r' s' ∧
        r'.queue = q.drop 4 := by
    intro q hq hn s out
    obtain ⟨res, fs, r', s', h1, h2, h3, h4, h5, h6, h7⟩ := C109_results_partial ⟨q, none⟩ (fun e h => by cases h) s out
    have hs := h5.2 ⟨rfl, hq⟩
    rw [if_pos hs] at h6 h7
    rw [hn] at h7
    have : fs = [] := List.eq_nil_of_length_eq_zero h7.1.symm
    subst this
    subst hs
    exact ⟨r', s', h1, h6⟩
  refine ⟨fun h => ?_, fun s out => ?_⟩
  · obtain ⟨r', s', h1, -⟩ := key [busOffMsg] (by simp) (by decide) (Iface.mk' 0 "can0" 3) (Vector.replicate FramesLen Frame.default)
    have := (h _ _ _ _ _ _ (fun e h => by cases h) h1).2 (.Success, []) (by simp) (by decide)
    exact absurd (this.2 rfl) (by decide)
  · obtain ⟨r', s', h1, h2⟩ := key [busOffMsg, busOffMsg, busOffMsg, busOffMsg, dataMsg 5 8] (by simp) (by decide) s out
    exact ⟨r', s', h1, h2, by decide⟩

end Uavcan.SocketCan
