import Verif.Lemmas.EventLoop

/-!
# C113: an application that waits with `select` and reads misses nothing and comes to rest
-/

namespace Uavcan.SocketCan
open Spec Can Time

/-- `n` times: wait for messages and read once from each interface that the group counts. -/
def rounds (g : Group) (usec : Int) (wr : Int → Bool) (signal : Bool) (out : Vector FrameT FramesLen) (n : Nat) : List GroupEv :=
  (List.replicate n (waitAndRead g usec wr signal out)).flatten

/-- The property as stated in `properties.jsonl`. -/
def C113_Statement : Prop :=
  ∀ (net : Net) (g : Group), (∀ fd, RealErr (net fd)) → OwnSockets g →
    (∀ evs outs net' g', Loops net g evs outs net' g' → ∀ k i, g.interfaces[k]? = some i →
      ∃ taken, (net i.fd).queue ++ arrivedAt i.fd evs = taken ++ (net' i.fd).queue ∧
        AllFrom (taken.filter fun m => Delivers m.frame.can_id) (deliveredAt k outs)) ∧
    (∀ evs usec ig wr s outs net' g', Loops net g (evs ++ [.select usec ig wr s]) (outs ++ [.select .SuccessTimeout]) net' g' →
      ∀ k i, g.interfaces[k]? = some i →
        AllFrom (((net i.fd).queue ++ arrivedAt i.fd evs).filter fun m => Delivers m.frame.can_id) (deliveredAt k outs)) ∧
    ∀ usec, 0 < usec → IsInt 64 usec → ∀ wr out, ∃ n, ∀ m, n ≤ m → ∀ outs net' g',
      Loops net g (rounds g usec wr false out m ++ [.select usec true wr false]) outs net' g' →
        outs.getLast? = some (.select .SuccessTimeout)

/-- Two interfaces. -/
def twoIfaces : Group := ⟨[Iface.mk' 0 "can0" 3, Iface.mk' 1 "can1" 4]⟩

/-- Six messages wait at the first interface, none at the second, which is down (`ENETDOWN`). -/
def sixAndDown : Net := fun fd =>
  if fd = 3 then ⟨List.replicate 5 (dataMsg 1 8) ++ [busOffMsg], none⟩ else if fd = 4 then ⟨[], some 100⟩ else ⟨[], none⟩

theorem sixAndDown_realErr : ∀ fd, RealErr (sixAndDown fd) := by
  intro fd e h
  unfold sixAndDown at h
  split at h
  · cases h
  · split at h
    · cases h; decide
    · cases h

theorem twoIfaces_own : OwnSockets twoIfaces := by
  refine ⟨by decide, fun i hi => ?_⟩
  simp only [twoIfaces, List.mem_cons, List.not_mem_nil, or_false] at hi
  rcases hi with h | h <;> subst h <;> decide

/-- C113: all these histories exist: with positive timeouts, no call has undefined behaviour. -/
theorem C113_total (net : Net) (he : ∀ fd, RealErr (net fd)) (g : Group) (evs : List GroupEv) (hp : PositiveTimeouts evs) :
    ∃ outs net' g', Loops net g evs outs net' g' := by
  induction evs generalizing net g with
  | nil => exact ⟨[], net, g, .nil net g⟩
  | cons ev evs ih =>
    have hp' : PositiveTimeouts evs := fun e hm => hp e (List.mem_cons_of_mem _ hm)
    cases ev with
    | arrive fd ms =>
      obtain ⟨o, n', g', h⟩ := ih _ (realErr_step he (fdsOf g) (.arrive fd ms)) g hp'
      exact ⟨o, n', g', .arrive h⟩
    | fail fd e hne =>
      obtain ⟨o, n', g', h⟩ := ih _ (realErr_step he (fdsOf g) (.fail fd e hne)) g hp'
      exact ⟨o, n', g', .fail h⟩
    | select usec ig wr s =>
      obtain ⟨h0, h1⟩ := hp _ (List.mem_cons_self ..) usec ig wr s rfl
      obtain ⟨o, n', g', h⟩ := ih net he g hp'
      let fds := g.interfaces.map fun i => (i.fd, if ig then POLLIN ||| POLLPRI else POLLIN ||| POLLPRI ||| POLLOUT)
      obtain ⟨r, req, hs⟩ := C44_returns g usec ig (pollAnswer net wr s fds) h0 h1
      have hf : req.fds = fds := by
        have := hs
        rw [select_eq strictAbs g usec ig _ (by omega) h1] at this
        cases hd : Duration.sub strictAbs defaultWidth ⟨usec⟩ ⟨usec / 1000000 * 1000000⟩ with
        | ub u => rw [hd] at this; cases this
        | ok x => rw [hd] at this; simp only [Outcome.bind, Outcome.ok.injEq, Prod.mk.injEq] at this; rw [← this.2]
      exact ⟨_, n', g', .select hs (by rw [hf]) h⟩
    | read k out old =>
      cases hi : g.interfaces[k]? with
      | none =>
        obtain ⟨o, n', g', h⟩ := ih net he g hp'
        exact ⟨_, n', g', .readBad (ans := ⟨0, 0, []⟩) (o := ⟨.BadArgument, out, old, g⟩) hi (by simp only [Group.read, hi]) h⟩
      | some i =>
        obtain ⟨ans, r1, o, a, b, c, -⟩ := read_once (net i.fd) (he i.fd) i out
        obtain ⟨os, n', g', h⟩ := ih (net.set i.fd r1) (realErr_set he _ (fun e h => by rw [c] at h; cases h))
          ⟨g.interfaces.set k o.iface⟩ hp'
        exact ⟨_, n', g', .read hi a (groupRead_iface hi out old b) h⟩

/-- A message arrives and an interface goes down between waiting and reading. -/
example (out : Vector FrameT FramesLen) : ∃ outs net' g', Loops sixAndDown twoIfaces
    [.select 1 true (fun _ => false) true, .arrive 4 [dataMsg 7 1], .read 1 out 9, .fail 3 100 (by decide), .read 0 out 0, .read 2 out 5]
    outs net' g' :=
  C113_total sixAndDown sixAndDown_realErr twoIfaces _ (by
    intro ev hm u ig w s' hev
    subst hev
    simp only [List.mem_cons, GroupEv.select.injEq, reduceCtorEq, List.not_mem_nil, or_false] at hm
    rw [hm.1]; decide)

/-- C113, partial: for each interface, the messages that were waiting or arrived are those taken by the calls of `read` for it, in
order, and those still waiting; what the calls deliver together is exactly the deliverable ones among those taken. What happens at the
other interfaces, and calls of `select`, make no difference. Missing: coming to rest. -/
theorem C113_once_partial {net net' : Net} {g g' : Group} {evs : List GroupEv} {outs : List GroupOut}
    (h : Loops net g evs outs net' g') (he : ∀ fd, RealErr (net fd)) (ho : OwnSockets g) (k : Nat) (i : Iface)
    (hi : g.interfaces[k]? = some i) :
    ∃ taken, (net i.fd).queue ++ arrivedAt i.fd evs = taken ++ (net' i.fd).queue ∧
      AllFrom (taken.filter fun m => Delivers m.frame.can_id) (deliveredAt k outs) := by
  have hfd : (fdsOf g)[k]? = some i.fd := by rw [fds_get, hi]; rfl
  have hn : (fdsOf g).Nodup := ho.1
  generalize i.fd = fd at hfd ⊢
  clear ho hi
  induction h with
  | nil => exact ⟨[], by simp [arrivedAt], rfl, fun i m f hm => by simp at hm⟩
  | @arrive net net' g g' x ms evs outs _ ih =>
    obtain ⟨t, a, b⟩ := ih (realErr_step he (fdsOf g) (.arrive x ms)) hn hfd
    refine ⟨t, ?_, b⟩
    rw [← a, arrivedAt]
    unfold Net.set
    by_cases hx : fd = x
    · subst hx; simp
    · rw [if_neg hx, if_neg (Ne.symm hx), List.nil_append]
  | @fail net net' g g' x e hne evs outs _ ih =>
    obtain ⟨t, a, b⟩ := ih (realErr_step he (fdsOf g) (.fail x e hne)) hn hfd
    refine ⟨t, ?_, b⟩
    rw [← a]
    unfold Net.set
    by_cases hx : fd = x
    · subst hx; simp [arrivedAt]
    · rw [if_neg hx]; rfl
  | select _ _ _ ih => exact ih he hn hfd
  | @read net net' g g' j out old s ans r1 o evs outs h1 h2 h3 _ ih =>
    obtain ⟨ans', r1', o', x1, x2, x3, t, x4, x5, -⟩ := read_once (net s.fd) (he s.fd) s out
    rw [h2] at x1
    cases x1
    rw [groupRead_iface h1 out old x2] at h3
    cases h3
    have hf : fdsOf ⟨g.interfaces.set j o'.iface⟩ = fdsOf g := fdsOf_set g j s o'.iface h1 (read_fd x2)
    obtain ⟨t', a, b⟩ := ih (realErr_set he s.fd (fun e h => by rw [x3] at h; cases h)) (by rw [hf]; exact hn) (by rw [hf]; exact hfd)
    have hj : (fdsOf g)[j]? = some s.fd := by rw [fds_get, h1]; rfl
    simp only [arrivedAt, deliveredAt]
    by_cases hjk : j = k
    · subst hjk
      rw [hfd] at hj
      cases hj
      refine ⟨t ++ t', ?_, ?_⟩
      · rw [x4, List.append_assoc, List.append_assoc, ← a]
        unfold Net.set
        rw [if_pos rfl]
      · rw [List.filter_append, if_pos rfl]
        exact allFrom_append x5 b
    · have hne : fd ≠ s.fd := by
        intro hc
        obtain ⟨p, q⟩ := List.getElem?_eq_some_iff.1 hfd
        obtain ⟨p', q'⟩ := List.getElem?_eq_some_iff.1 hj
        exact hjk (nodup_getElem hn p' p (q'.trans (hc.symm.trans q.symm)))
      refine ⟨t', ?_, ?_⟩
      · rw [← a]; unfold Net.set; rw [if_neg hne]
      · rw [if_neg hjk]; exact b
  | @readBad net net' g g' j out old ans o evs outs h1 h3 _ ih =>
    have hf := groupRead_fds h3
    obtain ⟨t', a, b⟩ := ih he (by rw [hf]; exact hn) (by rw [hf]; exact hfd)
    refine ⟨t', a, ?_⟩
    simp only [deliveredAt, ite_self, List.nil_append]
    exact b

/-- C113: what `select` says about the sockets at the moment when it returns: `SuccessPartial` exactly if an interface has an error,
otherwise `Success` exactly if a message waits at some interface or, unless told to ignore it, some interface has room to send; and
`SuccessTimeout` or, after a signal, `Failure` exactly if there is nothing of that. -/
theorem C113_select {net net' : Net} {g g' : Group} {usec : Int} {ig : Bool} {wr : Int → Bool} {s : Bool} {outs : List GroupOut}
    (h : Loops net g [.select usec ig wr s] outs net' g') (ho : OwnSockets g) :
    ∃ r, outs = [.select r] ∧ net' = net ∧
      (r = .SuccessPartial ↔ ∃ i ∈ g.interfaces, (net i.fd).err ≠ none) ∧
      (r = .Success ↔ (∀ i ∈ g.interfaces, (net i.fd).err = none) ∧
        ∃ i ∈ g.interfaces, (net i.fd).queue ≠ [] ∨ (ig = false ∧ wr i.fd = true)) ∧
      (r = .SuccessTimeout ↔ (∀ i ∈ g.interfaces, (net i.fd).err = none ∧ (net i.fd).queue = [] ∧ (ig = false → wr i.fd = false)) ∧
        s = false) ∧
      (r = .Failure ↔ (∀ i ∈ g.interfaces, (net i.fd).err = none ∧ (net i.fd).queue = [] ∧ (ig = false → wr i.fd = false)) ∧
        s = true) := by
  cases h with
  | @select _ _ _ _ _ _ _ _ ans r req _ _ h1 h2 h3 =>
    cases h3
    have hf : req.fds = g.interfaces.map fun i => (i.fd, if ig then POLLIN ||| POLLPRI else POLLIN ||| POLLPRI ||| POLLOUT) := by
      simp only [Group.select] at h1
      cases hw : signedResult 64 ((Duration.toMicrosecond ⟨usec⟩).tdiv 1000000 * 1000000) with
      | ub u => rw [hw] at h1; cases h1
      | ok w =>
        rw [hw] at h1
        simp only [Outcome.ok_bind] at h1
        cases hd : Duration.sub strictAbs defaultWidth ⟨usec⟩ (Duration.fromMicrosecond w) with
        | ub u => rw [hd] at h1; cases h1
        | ok x =>
          rw [hd] at h1
          simp only [Outcome.ok_bind, Outcome.pure_eq] at h1
          split at h1
          · injection h1 with h1; injection h1 with _ h1; rw [← h1]
          · split at h1
            · injection h1 with h1; injection h1 with _ h1; rw [← h1]
            · injection h1 with h1; injection h1 with _ h1; rw [← h1]
    have hrev : ans.revents = g.interfaces.map fun i =>
        reported net wr (i.fd, if ig then POLLIN ||| POLLPRI else POLLIN ||| POLLPRI ||| POLLOUT) := by
      rw [h2, pollAnswer, hf, List.map_map]; rfl
    obtain ⟨c1, c2, c3, c4, -⟩ := C44_select strictAbs g ⟨usec⟩ ig ans (by rw [hrev, List.length_map]) r req h1
    have hidle : (∀ i ∈ g.interfaces, (net i.fd).err = none ∧ (net i.fd).queue = [] ∧ (ig = false → wr i.fd = false)) ↔
        (ans.revents.filter (· ≠ 0)).length = 0 := by
      rw [List.length_eq_zero_iff, List.filter_eq_nil_iff, hrev]
      constructor
      · intro hh e he
        obtain ⟨i, hi, rfl⟩ := List.mem_map.1 he
        obtain ⟨a, b, c⟩ := hh i hi
        have := (reported_zero net wr ig i.fd (ho.2 i hi)).2 ⟨b, a, c⟩
        simp [this]
      · intro hh i hi
        have := hh _ (List.mem_map.2 ⟨i, hi, rfl⟩)
        have hz : reported net wr (i.fd, if ig then POLLIN ||| POLLPRI else POLLIN ||| POLLPRI ||| POLLOUT) = 0 := by
          simpa using this
        obtain ⟨b, a, c⟩ := (reported_zero net wr ig i.fd (ho.2 i hi)).1 hz
        exact ⟨a, b, c⟩
    have hexc : (∃ e ∈ ans.revents, Exceptional e) ↔ ∃ i ∈ g.interfaces, (net i.fd).err ≠ none := by
      rw [hrev]
      constructor
      · rintro ⟨e, he, hx⟩
        obtain ⟨i, hi, rfl⟩ := List.mem_map.1 he
        exact ⟨i, hi, (reported_err net wr ig i.fd (ho.2 i hi)).1 hx⟩
      · rintro ⟨i, hi, hx⟩
        exact ⟨_, List.mem_map.2 ⟨i, hi, rfl⟩, (reported_err net wr ig i.fd (ho.2 i hi)).2 hx⟩
    have hres : ans.res = if (ans.revents.filter (· ≠ 0)).length ≠ 0 then ((ans.revents.filter (· ≠ 0)).length : Int)
        else if s then -1 else 0 := by rw [h2]; rfl
    rw [hexc] at c3 c4
    generalize (ans.revents.filter (· ≠ 0)).length = N at hidle hres
    refine ⟨r, rfl, rfl, ?_, ?_, ?_, ?_⟩
    · rw [c3]
      refine ⟨fun h => h.2, fun h => ⟨?_, h⟩⟩
      rw [hres, if_pos]
      · have : N ≠ 0 := by
          intro hc
          obtain ⟨i, hi, hx⟩ := h
          exact hx (hidle.2 hc i hi).1
        omega
      · intro hc
        obtain ⟨i, hi, hx⟩ := h
        exact hx (hidle.2 hc i hi).1
    · rw [c4]
      have hpos : 0 < ans.res ↔ N ≠ 0 := by
        rw [hres]
        by_cases hc : N = 0
        · rw [if_neg (by simpa using hc)]
          cases s <;> simp [hc]
        · rw [if_pos hc]; omega
      rw [hpos, Ne, ← hidle]
      constructor
      · rintro ⟨a, b⟩
        have hall : ∀ i ∈ g.interfaces, (net i.fd).err = none := fun i hi => by
          cases hx : (net i.fd).err with
          | none => rfl
          | some e => exact absurd ⟨i, hi, by rw [hx]; simp⟩ b
        refine ⟨hall, ?_⟩
        refine Classical.byContradiction fun hn => a fun i hi => ⟨hall i hi, ?_, ?_⟩
        · exact Classical.byContradiction fun hq => hn ⟨i, hi, .inl hq⟩
        · intro hig
          cases hw : wr i.fd with
          | false => rfl
          | true => exact absurd ⟨i, hi, .inr ⟨hig, hw⟩⟩ hn
      · rintro ⟨a, i, hi, hx⟩
        refine ⟨fun hh => ?_, fun ⟨j, hj, hy⟩ => hy (a j hj)⟩
        obtain ⟨-, p, q⟩ := hh i hi
        rcases hx with hx | ⟨hx, hy⟩
        · exact hx p
        · rw [q hx] at hy; cases hy
    · rw [c1, hidle, hres]
      by_cases hc : N = 0
      · rw [if_neg (by simpa using hc)]
        cases s <;> simp [hc]
      · rw [if_pos hc]
        constructor
        · intro h; omega
        · rintro ⟨h, -⟩; exact absurd h hc
    · rw [c2, hidle, hres]
      by_cases hc : N = 0
      · rw [if_neg (by simpa using hc)]
        cases s <;> simp [hc]
      · rw [if_pos hc]
        constructor
        · intro h; omega
        · rintro ⟨h, -⟩; exact absurd h hc

/-- One interface is down: `SuccessPartial`, although messages wait at the other. -/
example (outs : List GroupOut) (net' : Net) (g' : Group)
    (h : Loops sixAndDown twoIfaces [.select 5 true (fun _ => false) false] outs net' g') : outs = [.select .SuccessPartial] := by
  obtain ⟨r, a, -, b, -⟩ := C113_select h twoIfaces_own
  rw [a, b.2 ⟨Iface.mk' 1 "can1" 4, by simp [twoIfaces], by decide⟩]

/-- C113: when `select` says `SuccessTimeout`, then everything that had arrived at any interface has been delivered. -/
theorem C113_timeout {net net' : Net} {g g' : Group} {evs : List GroupEv} {outs : List GroupOut} {usec : Int} {ig : Bool}
    {wr : Int → Bool} {s : Bool} (h : Loops net g (evs ++ [.select usec ig wr s]) (outs ++ [.select .SuccessTimeout]) net' g')
    (he : ∀ fd, RealErr (net fd)) (ho : OwnSockets g) (k : Nat) (i : Iface) (hi : g.interfaces[k]? = some i) :
    AllFrom (((net i.fd).queue ++ arrivedAt i.fd evs).filter fun m => Delivers m.frame.can_id) (deliveredAt k outs) := by
  obtain ⟨net1, g1, o1, o2, a, b, c⟩ := loops_append h
  have hf := (loops_net b).2
  have ho1 : OwnSockets g1 := by
    refine ⟨by have := ho.1; rw [show g.interfaces.map Iface.fd = fdsOf g from rfl, ← hf] at this; exact this, fun j hj => ?_⟩
    have : j.fd ∈ fdsOf g1 := List.mem_map.2 ⟨j, hj, rfl⟩
    rw [hf] at this
    obtain ⟨j', hj', he'⟩ := List.mem_map.1 this
    rw [← he']; exact ho.2 j' hj'
  obtain ⟨r, d, -, -, -, e, -⟩ := C113_select c ho1
  subst d
  obtain ⟨a1, a2⟩ := List.append_inj' a rfl
  subst a1
  simp only [List.cons.injEq, GroupOut.select.injEq, and_true] at a2
  obtain ⟨t, x, y⟩ := C113_once_partial b he ho k i hi
  have hm : i.fd ∈ fdsOf g1 := by
    rw [hf]; exact List.mem_map.2 ⟨i, List.mem_of_getElem? hi, rfl⟩
  obtain ⟨i1, hi1, hfd⟩ := List.mem_map.1 hm
  have := ((e.1 a2.symm).1 i1 hi1).2.1
  rw [hfd] at this
  rw [this, List.append_nil] at x
  rw [x]
  exact y

theorem rounds_net (g : Group) (hn : (fdsOf g).Nodup) (usec : Int) (wr : Int → Bool) (s : Bool) (out : Vector FrameT FramesLen)
    (n : Nat) (net : Net) (k : Nat) (fd : Int) (hk : (fdsOf g)[k]? = some fd) :
    ((rounds g usec wr s out n).foldl (netStep (fdsOf g)) net) fd = if k < 255 then afterReads n (net fd) else net fd := by
  have hlen : k < g.interfaces.length := by
    have := (List.getElem?_eq_some_iff.1 hk).1
    simpa [fdsOf] using this
  induction n generalizing net with
  | zero => simp [rounds, afterReads]
  | succ n ih =>
    have h1 := ih ((waitAndRead g usec wr s out).foldl (netStep (fdsOf g)) net)
    have h2 : ((waitAndRead g usec wr s out).foldl (netStep (fdsOf g)) net) fd = if k < 255 then afterRead (net fd) else net fd := by
      unfold waitAndRead
      rw [List.foldl_cons]
      rw [reads_range (fdsOf g) hn out _ g.getInterfaceCount k fd hk]
      unfold Group.getInterfaceCount netStep
      by_cases hc : k < 255
      · rw [if_pos hc, if_pos (by omega)]
      · rw [if_neg hc, if_neg (by omega)]
    rw [h2] at h1
    unfold rounds at h1 ⊢
    rw [List.replicate_succ, List.flatten_cons, List.foldl_append, h1]
    by_cases hc : k < 255
    · rw [if_pos hc, if_pos hc, if_pos hc]; rfl
    · rw [if_neg hc, if_neg hc, if_neg hc]

/-- C113, partial: if nothing more arrives, `select` after `n` rounds says exactly this: each round takes an error or four messages
from each of the first 255 interfaces, and nothing from the others. Missing: the others. -/
theorem C113_rounds_partial {net net' : Net} {g g' : Group} {usec : Int} {wr wr' : Int → Bool} {s : Bool}
    {out : Vector FrameT FramesLen} {n : Nat} {outs : List GroupOut}
    (h : Loops net g (rounds g usec wr s out n ++ [.select usec true wr' false]) outs net' g') (ho : OwnSockets g) :
    ∃ os r, outs = os ++ [.select r] ∧
      (r = .SuccessPartial ↔ ∃ k i, g.interfaces[k]? = some i ∧ (net i.fd).err ≠ none ∧ (n = 0 ∨ 255 ≤ k)) ∧
      (r = .SuccessTimeout ↔ ∀ k i, g.interfaces[k]? = some i → ((net i.fd).err ≠ none → n ≠ 0 ∧ k < 255) ∧
        (net i.fd).queue.length ≤ if k < 255 then 4 * (n - if (net i.fd).err = none then 0 else 1) else 0) ∧
      (r = .Success ∨ r = .SuccessPartial ∨ r = .SuccessTimeout) := by
  obtain ⟨net1, g1, o1, o2, a, b, c⟩ := loops_append h
  obtain ⟨hnet, hf⟩ := loops_net b
  have hn : (fdsOf g).Nodup := ho.1
  have ho1 : OwnSockets g1 := by
    refine ⟨by have := ho.1; rw [show g.interfaces.map Iface.fd = fdsOf g from rfl, ← hf] at this; exact this, fun j hj => ?_⟩
    have : j.fd ∈ fdsOf g1 := List.mem_map.2 ⟨j, hj, rfl⟩
    rw [hf] at this
    obtain ⟨j', hj', he'⟩ := List.mem_map.1 this
    rw [← he']; exact ho.2 j' hj'
  obtain ⟨r, d, -, e1, e2, e3, e4⟩ := C113_select c ho1
  have hst : ∀ k i, g.interfaces[k]? = some i → net1 i.fd = if k < 255 then afterReads n (net i.fd) else net i.fd := by
    intro k i hi
    rw [hnet]
    exact rounds_net g hn usec wr s out n net k i.fd (by rw [fds_get, hi]; rfl)
  have hall : ∀ P : Int → Prop, (∀ i ∈ g1.interfaces, P i.fd) ↔ ∀ (k : Nat) (i : Iface), g.interfaces[k]? = some i → P i.fd := by
    intro P
    constructor
    · intro hh k i hi
      have : i.fd ∈ fdsOf g1 := by rw [hf]; exact List.mem_map.2 ⟨i, List.mem_of_getElem? hi, rfl⟩
      obtain ⟨j, hj, hjf⟩ := List.mem_map.1 this
      rw [← hjf]; exact hh j hj
    · intro hh j hj
      have : j.fd ∈ fdsOf g := by rw [← hf]; exact List.mem_map.2 ⟨j, hj, rfl⟩
      obtain ⟨i, hi, hif⟩ := List.mem_map.1 this
      obtain ⟨k, hk⟩ := List.getElem?_of_mem hi
      rw [← hif]; exact hh k i hk
  have hex : ∀ P : Int → Prop, (∃ i ∈ g1.interfaces, P i.fd) ↔ ∃ (k : Nat) (i : Iface), g.interfaces[k]? = some i ∧ P i.fd := by
    intro P
    have := hall fun fd => ¬ P fd
    constructor
    · intro hh
      refine Classical.byContradiction fun hc => ?_
      obtain ⟨i, hi, hx⟩ := hh
      exact this.2 (fun k i hk hp => hc ⟨k, i, hk, hp⟩) i hi hx
    · intro hh
      refine Classical.byContradiction fun hc => ?_
      obtain ⟨k, i, hi, hx⟩ := hh
      exact this.1 (fun i hi hp => hc ⟨i, hi, hp⟩) k i hi hx
  have herr : ∀ k i, g.interfaces[k]? = some i → ((net1 i.fd).err ≠ none ↔ (net i.fd).err ≠ none ∧ (n = 0 ∨ 255 ≤ k)) := by
    intro k i hi
    rw [hst k i hi]
    by_cases hk : k < 255
    · rw [if_pos hk, Ne, (afterReads_queue n _).2]
      by_cases h0 : n = 0 <;> simp [h0, hk]
    · rw [if_neg hk]
      refine ⟨fun h => ⟨h, .inr (by omega)⟩, fun h => h.1⟩
  have hq : ∀ k i, g.interfaces[k]? = some i → ((net1 i.fd).queue = [] ↔
      (net i.fd).queue.length ≤ if k < 255 then 4 * (n - if (net i.fd).err = none then 0 else 1) else 0) := by
    intro k i hi
    rw [hst k i hi]
    by_cases hk : k < 255
    · rw [if_pos hk, if_pos hk, (afterReads_queue n _).1, List.drop_eq_nil_iff]
    · rw [if_neg hk, if_neg hk, Nat.le_zero, List.length_eq_zero_iff]
  refine ⟨o1, r, by rw [a, d], ?_, ?_, ?_⟩
  · rw [e1, hex fun fd => (net1 fd).err ≠ none]
    constructor
    · rintro ⟨k, i, hi, hx⟩
      exact ⟨k, i, hi, ((herr k i hi).1 hx).1, ((herr k i hi).1 hx).2⟩
    · rintro ⟨k, i, hi, hx, hy⟩
      exact ⟨k, i, hi, (herr k i hi).2 ⟨hx, hy⟩⟩
  · rw [e3]
    have := hall fun fd => (net1 fd).err = none ∧ (net1 fd).queue = [] ∧ (true = false → wr' fd = false)
    rw [this]
    simp only [and_true]
    constructor
    · intro hh k i hi
      obtain ⟨x, y, -⟩ := hh k i hi
      refine ⟨fun hne => ?_, (hq k i hi).1 y⟩
      have := (not_congr (herr k i hi)).1 (by simp [x])
      have h2 : ¬ (n = 0 ∨ 255 ≤ k) := fun hc => this ⟨hne, hc⟩
      omega
    · intro hh k i hi
      obtain ⟨x, y⟩ := hh k i hi
      refine ⟨?_, (hq k i hi).2 y, fun hc => by cases hc⟩
      refine Classical.byContradiction fun hc => ?_
      obtain ⟨p, q⟩ := (herr k i hi).1 hc
      obtain ⟨u, v⟩ := x p
      omega
  · by_cases hp : ∃ i ∈ g1.interfaces, (net1 i.fd).err ≠ none
    · exact .inr (.inl (e1.2 hp))
    · have hnone : ∀ i ∈ g1.interfaces, (net1 i.fd).err = none := fun i hi =>
        Classical.byContradiction fun hc => hp ⟨i, hi, hc⟩
      by_cases hs : ∃ i ∈ g1.interfaces, (net1 i.fd).queue ≠ [] ∨ (true = false ∧ wr' i.fd = true)
      · exact .inl (e2.2 ⟨hnone, hs⟩)
      · refine .inr (.inr (e3.2 ⟨fun i hi => ⟨hnone i hi, ?_, fun hc => by cases hc⟩, rfl⟩))
        exact Classical.byContradiction fun hc => hs ⟨i, hi, .inl hc⟩

/-- C113, partial: exactly when an application comes to rest: no message and no error waits at an interface beyond the first 255.
Missing: those. -/
theorem C113_rests_partial (net : Net) (he : ∀ fd, RealErr (net fd)) (g : Group) (ho : OwnSockets g) (usec : Int) (h0 : 0 < usec)
    (h1 : IsInt 64 usec) (wr : Int → Bool) (out : Vector FrameT FramesLen) :
    (∃ n, ∀ m, n ≤ m → ∀ outs net' g', Loops net g (rounds g usec wr false out m ++ [.select usec true wr false]) outs net' g' →
        outs.getLast? = some (.select .SuccessTimeout)) ↔
      ∀ k i, g.interfaces[k]? = some i → 255 ≤ k → (net i.fd).err = none ∧ (net i.fd).queue = [] := by
  constructor
  · rintro ⟨n, hn⟩ k i hi hk
    have hpos : PositiveTimeouts (rounds g usec wr false out n ++ [.select usec true wr false]) := by
      intro ev hm u ig w s' hev
      subst hev
      rcases List.mem_append.1 hm with hm | hm
      · unfold rounds at hm
        obtain ⟨l, hl, hm⟩ := List.mem_flatten.1 hm
        rw [(List.mem_replicate.1 hl).2] at hm
        unfold waitAndRead at hm
        rcases List.mem_cons.1 hm with hm | hm
        · cases hm; exact ⟨h0, h1⟩
        · obtain ⟨j, -, hj⟩ := List.mem_map.1 hm
          cases hj
      · rw [List.mem_singleton] at hm
        cases hm; exact ⟨h0, h1⟩
    obtain ⟨outs, net', g', h⟩ := C113_total net he g _ hpos
    obtain ⟨os, r, a, -, b, -⟩ := C113_rounds_partial h ho
    have hl := hn n (Nat.le_refl n) outs net' g' h
    rw [a, List.getLast?_append] at hl
    simp only [List.getLast?_singleton, Option.some_or, Option.some.injEq, GroupOut.select.injEq] at hl
    obtain ⟨x, y⟩ := b.1 hl k i hi
    rw [if_neg (by omega), Nat.le_zero, List.length_eq_zero_iff] at y
    refine ⟨Classical.byContradiction fun hc => ?_, y⟩
    have := (x hc).2
    omega
  · intro hq
    have hmax : ∀ l : List Iface, ∃ n, ∀ i ∈ l, (net i.fd).queue.length ≤ n := by
      intro l
      induction l with
      | nil => exact ⟨0, fun i hi => by cases hi⟩
      | cons a l ih =>
        obtain ⟨n, hn⟩ := ih
        refine ⟨n + (net a.fd).queue.length, fun i hi => ?_⟩
        rcases List.mem_cons.1 hi with hi | hi
        · subst hi; omega
        · have := hn i hi; omega
    obtain ⟨n, hn⟩ := hmax g.interfaces
    refine ⟨n + 1, fun m hm outs net' g' h => ?_⟩
    obtain ⟨os, r, a, -, b, -⟩ := C113_rounds_partial h ho
    have hr : r = .SuccessTimeout := b.2 fun k i hi => by
      have hlen := hn i (List.mem_of_getElem? hi)
      by_cases hk : k < 255
      · rw [if_pos hk]
        refine ⟨fun _ => ⟨by omega, hk⟩, ?_⟩
        by_cases hne : (net i.fd).err = none
        · rw [if_pos hne]; omega
        · rw [if_neg hne]; omega
      · obtain ⟨x, y⟩ := hq k i hi (by omega)
        refine ⟨fun hc => absurd x hc, ?_⟩
        rw [if_neg hk, y]
        exact Nat.le_refl 0
    rw [a, hr, List.getLast?_append]
    rfl

/-- Two rounds serve the six messages and the error; the third call of `select` finds nothing, and five frames have been delivered. -/
example (out : Vector FrameT FramesLen) : ∃ os net' g',
    Loops sixAndDown twoIfaces (rounds twoIfaces 1000000 (fun _ => true) false out 2 ++ [.select 1000000 true (fun _ => true) false])
      (os ++ [.select .SuccessTimeout]) net' g' ∧ (deliveredAt 0 os).length = 5 := by
  have hpos : PositiveTimeouts (rounds twoIfaces 1000000 (fun _ => true) false out 2 ++
      [.select 1000000 true (fun _ => true) false]) := by
    intro ev hm u ig w s' hev
    subst hev
    have : u = 1000000 := by
      rcases List.mem_append.1 hm with hm | hm
      · unfold rounds at hm
        obtain ⟨l, hl, hm⟩ := List.mem_flatten.1 hm
        rw [(List.mem_replicate.1 hl).2] at hm
        unfold waitAndRead at hm
        rcases List.mem_cons.1 hm with hm | hm
        · cases hm; rfl
        · obtain ⟨j, -, hj⟩ := List.mem_map.1 hm
          cases hj
      · rw [List.mem_singleton] at hm
        cases hm; rfl
    rw [this]; decide
  obtain ⟨outs, net', g', h⟩ := C113_total sixAndDown sixAndDown_realErr twoIfaces _ hpos
  obtain ⟨os, r, a, -, b, -⟩ := C113_rounds_partial h twoIfaces_own
  have hr : r = .SuccessTimeout := b.2 fun k i hi => by
    match k, hi with
    | 0, hi => cases hi; refine ⟨fun hc => absurd rfl hc, by decide⟩
    | 1, hi => cases hi; refine ⟨fun _ => ⟨by decide, by decide⟩, by decide⟩
    | k + 2, hi => simp [twoIfaces] at hi
  subst hr
  subst a
  refine ⟨os, net', g', h, ?_⟩
  have := (C113_timeout h sixAndDown_realErr twoIfaces_own 0 _ rfl).1
  rw [← this]
  have hz : ∀ evs : List GroupEv, (∀ fd ms, .arrive fd ms ∉ evs) → arrivedAt (Iface.mk' 0 "can0" 3).fd evs = [] := by
    intro evs
    induction evs with
    | nil => intro _; rfl
    | cons e t ih =>
      intro hh
      have ht := ih fun fd ms hm => hh fd ms (List.mem_cons_of_mem _ hm)
      cases e with
      | arrive fd ms => exact absurd (List.mem_cons_self ..) (hh fd ms)
      | fail => exact ht
      | select => exact ht
      | read => exact ht
  rw [hz]
  · decide
  · intro fd ms hm
    unfold rounds at hm
    obtain ⟨l, hl, hm⟩ := List.mem_flatten.1 hm
    rw [(List.mem_replicate.1 hl).2] at hm
    unfold waitAndRead at hm
    rcases List.mem_cons.1 hm with hm | hm
    · cases hm
    · obtain ⟨j, -, hj⟩ := List.mem_map.1 hm
      cases hj

/-- 256 interfaces. -/
def manyIfaces : Group := ⟨(List.range 256).map fun k => Iface.mk' k "can" k⟩

theorem manyIfaces_own : OwnSockets manyIfaces := by
  refine ⟨?_, fun i hi => ?_⟩
  · unfold manyIfaces
    rw [List.map_map]
    refine List.Pairwise.map _ (fun a b hab => ?_) List.nodup_range
    intro hc
    exact hab (Int.ofNat.inj hc)
  · obtain ⟨k, -, hk⟩ := List.mem_map.1 hi
    rw [← hk]
    exact Int.natCast_nonneg k

/-- One message waits at the last of 256 interfaces. -/
def lastWaits : Net := fun fd => if fd = 255 then ⟨[dataMsg 1 8], none⟩ else ⟨[], none⟩

/-- C113 is false of the code: the group counts at most 255 interfaces but waits for all. A message at the 256th is never read by an
application that relies on `getInterfaceCount`, and `select` never waits again. -/
theorem C113_full_statement_fails : ¬ C113_Statement ∧
    ∀ (usec : Int) (wr : Int → Bool) (out : Vector FrameT FramesLen) (n : Nat) (outs : List GroupOut) (net' : Net) (g' : Group),
      Loops lastWaits manyIfaces (rounds manyIfaces usec wr false out n ++ [.select usec true wr false]) outs net' g' →
      outs.getLast? = some (.select .Success) := by
  have hre : ∀ fd, RealErr (lastWaits fd) := by
    intro fd e h
    unfold lastWaits at h
    split at h <;> cases h
  have hlast : manyIfaces.interfaces[255]? = some (Iface.mk' 255 "can" (255 : Nat)) := by
    unfold manyIfaces
    rw [List.getElem?_map, List.getElem?_range (by omega)]
    rfl
  have key : ∀ (usec : Int) (wr : Int → Bool) (out : Vector FrameT FramesLen) (n : Nat) (outs : List GroupOut) (net' : Net) (g' : Group),
      Loops lastWaits manyIfaces (rounds manyIfaces usec wr false out n ++ [.select usec true wr false]) outs net' g' →
      outs.getLast? = some (.select .Success) := by
    intro usec wr out n outs net' g' h
    obtain ⟨os, r, a, b, c, d⟩ := C113_rounds_partial h manyIfaces_own
    have h1 : r ≠ .SuccessTimeout := by
      intro hr
      have := (c.1 hr 255 _ hlast).2
      rw [if_neg (by omega)] at this
      exact absurd this (by decide)
    have h2 : r ≠ .SuccessPartial := by
      intro hr
      obtain ⟨k, i, hi, hx, -⟩ := b.1 hr
      apply hx
      unfold lastWaits
      split <;> rfl
    have hr : r = .Success := by
      rcases d with d | d | d
      · exact d
      · exact absurd d h2
      · exact absurd d h1
    rw [a, hr, List.getLast?_append]
    rfl
  refine ⟨fun hs => ?_, key⟩
  obtain ⟨n, hn⟩ := (hs lastWaits manyIfaces hre manyIfaces_own).2.2 1000000 (by decide) (by decide) (fun _ => false)
    (Vector.replicate FramesLen Frame.default)
  have := (C113_rests_partial lastWaits hre manyIfaces manyIfaces_own 1000000 (by decide) (by decide) (fun _ => false)
    (Vector.replicate FramesLen Frame.default)).1 ⟨n, hn⟩ 255 _ hlast (Nat.le_refl _)
  exact absurd this.2 (by decide)

end Uavcan.SocketCan
