import Verif.Spec.Discard
import Verif.Props.Drain
import Verif.Props.SocketKernel

/-!
# C131: after discarding what waited, an application gets only what matches its filters
-/

namespace Uavcan.SocketCan
open Spec Can

/-- The socket is bound to `x` and has the filters `l`. -/
def Set (fd x : Int) (l : List Filter) (s : Sock) : Prop := s.boundTo = some x ∧ s.filterSet = some (filterCall (some l) l.length fd)

theorem keeps_set {fd x : Int} {l : List Filter} {s : Sock} (h : Set fd x l s) {e : FdEv} (hk : Keeps fd (.prog e)) : Set fd x l (s.step fd (.prog e)) := by
  cases e with
  | opened y => simp only [Sock.step]; rw [if_neg hk]; exact h
  | closed y => simp only [Sock.step]; rw [if_neg hk]; exact h
  | call y c =>
    simp only [Sock.step]
    split
    · rename_i hy
      obtain ⟨a, b⟩ := hk hy
      obtain ⟨h1, h2⟩ := h
      refine ⟨?_, ?_⟩
      · rw [← h1]; simp [Sock.boundTo, List.filterMap_append, a]
      · rw [← h2]; simp [Sock.filterSet, List.filterMap_append, b]
    · exact h

theorem receives_wants {l : List Filter} (hl : l.length < 2 ^ 29) (fd : Int) (id : BitVec 32) :
    (Receives (filterCall (some l) l.length fd) id ∧ Delivers id = true) ↔ Wants l id := by
  have hmod : (8 * l.length) % 2 ^ 32 = 8 * l.length := Nat.mod_eq_of_lt (by omega)
  have hinst : installed (filterCall (some l) l.length fd) = l.map toCanFilter := by
    simp only [installed, filterCall, hmod, Option.getD_some, List.take_length]
    rw [show 8 * l.length / 8 = l.length by omega]
    exact List.take_of_length_le (by simp)
  have hd : Delivers id = true ↔ id.getLsbD 29 = false ∧ canId29 id ≠ 0 := by simp [Delivers]
  rw [hd]
  simp only [Receives, hinst, List.mem_map]
  constructor
  · rintro ⟨⟨_, ⟨f, hf, rfl⟩, hp⟩, h29, h0⟩
    cases hm : f.mask.getLsbD 29 with
    | false =>
      obtain ⟨a, b, c, d⟩ := ((passes_toCanFilter f id).1 hm).1 hp
      exact ⟨a, b, h0, f, hf, hm, c, d⟩
    | true =>
      have := (passes_toCanFilter f id).2 hm hp
      simp only [IsErr, h29] at this
      cases this
  · rintro ⟨a, b, c, f, hf, hm, d, e⟩
    exact ⟨⟨_, ⟨f, hf, rfl⟩, ((passes_toCanFilter f id).1 hm).2 ⟨a, b, d, e⟩⟩, b, c⟩

theorem accepts_wants {l : List Filter} (hl : l.length < 2 ^ 29) {fd x : Int} {s : Sock} (h : Set fd x l s) (y : Int) (id : BitVec 32) :
    (s.Accepts y id ∧ Delivers id = true) ↔ y = x ∧ Wants l id := by
  rw [← receives_wants hl fd, Sock.Accepts, h.1, h.2]
  simp only [Option.some.injEq]
  constructor
  · rintro ⟨⟨a, b⟩, c⟩
    have : IsErr id = false := by
      simp only [Delivers, Bool.and_eq_true, Bool.not_eq_true'] at c; exact c.1
    rw [this] at b
    exact ⟨a.symm, b, c⟩
  · rintro ⟨a, b, c⟩
    have : IsErr id = false := by
      simp only [Delivers, Bool.and_eq_true, Bool.not_eq_true'] at c; exact c.1
    rw [this]
    exact ⟨⟨a.symm, b⟩, c⟩

/-- What arrives at a socket with these filters and is delivered. -/
theorem arrived_wants {l : List Filter} (hl : l.length < 2 ^ 29) {fd x : Int} (es : List LEv) (hk : ∀ e ∈ es, Keeps fd e) :
    ∀ s, Set fd x l s → (arrived (rxEvs fd s es)).filter (fun m => Delivers m.frame.can_id) = (arrivalsAt x es).filter (fun m => Wants l m.frame.can_id) := by
  induction es with
  | nil => exact fun _ _ => rfl
  | cons e es ih =>
    have ih := ih fun e he => hk e (List.mem_cons_of_mem _ he)
    have hk := hk e (List.mem_cons_self ..)
    intro s hs
    cases e with
    | prog e => exact ih _ (keeps_set hs hk)
    | fail e h => exact ih _ hs
    | read out => exact ih _ hs
    | arrive y m =>
      have key := accepts_wants hl hs y m.frame.can_id
      simp only [rxEvs, arrivalsAt]
      by_cases ha : s.Accepts y m.frame.can_id
      · rw [if_pos ha]
        simp only [arrived, List.singleton_append, List.filter_cons, ih s hs]
        by_cases hd : Delivers m.frame.can_id = true
        · obtain ⟨h1, h2⟩ := key.1 ⟨ha, hd⟩
          rw [if_pos hd, if_pos h1]
          simp [h2]
        · rw [if_neg hd]
          split
          · rename_i h1
            have : ¬ Wants l m.frame.can_id := fun h2 => hd (key.2 ⟨h1, h2⟩).2
            simp [this]
          · rfl
      · rw [if_neg ha, ih s hs]
        split
        · rename_i h1
          have : ¬ Wants l m.frame.can_id := fun h2 => ha (key.2 ⟨h1, h2⟩).1
          simp [this]
        · rfl

/-- Everything that waits at such a socket arrived there. -/
theorem arrived_accepted {l : List Filter} (hl : l.length < 2 ^ 29) {fd x : Int} (es : List LEv) (hk : ∀ e ∈ es, Keeps fd e) :
    ∀ s, Set fd x l s → ∀ m ∈ arrived (rxEvs fd s es), Delivers m.frame.can_id = true → Wants l m.frame.can_id := by
  induction es with
  | nil => intro s _ m hm; cases hm
  | cons e es ih =>
    have ih := ih fun e he => hk e (List.mem_cons_of_mem _ he)
    have hk := hk e (List.mem_cons_self ..)
    intro s hs
    cases e with
    | prog e => exact ih _ (keeps_set hs hk)
    | fail e h => exact ih _ hs
    | read out => exact ih _ hs
    | arrive y m =>
      simp only [rxEvs]
      split
      · rename_i ha
        intro m' hm hd
        rcases List.mem_cons.1 hm with rfl | hm
        · exact ((accepts_wants hl hs y _).1 ⟨ha, hd⟩).2
        · exact ih s hs m' hm hd
      · exact ih s hs

theorem set_after {l : List Filter} {fd x : Int} (es : List LEv) (hk : ∀ e ∈ es, Keeps fd e) :
    ∀ s, Set fd x l s → Set fd x l ((kernelPart es).foldl (Sock.step fd) s) := by
  induction es with
  | nil => exact fun _ h => h
  | cons e es ih =>
    have ih := ih fun e he => hk e (List.mem_cons_of_mem _ he)
    have hk := hk e (List.mem_cons_self ..)
    intro s hs
    cases e with
    | prog e => exact ih _ (keeps_set hs hk)
    | fail e h => exact ih _ hs
    | read out => exact ih _ hs
    | arrive y m =>
      refine ih _ ?_
      simp only [Sock.step]
      split
      · exact hs
      · exact hs

/-- C131: the main step. A socket has its filters; whatever waits and arrives meanwhile, once a `read` says `SuccessNothing` the application gets what matches and nothing
else. -/
theorem gets_only {l : List Filter} (hl : l.length < 2 ^ 29) {fd x : Int} {s : Sock} (hs : Set fd x l s) {es1 es2 : List LEv}
    (hk1 : ∀ e ∈ es1, Keeps fd e) (hk2 : ∀ e ∈ es2, Keeps fd e) {r r1 r2 : RxSock} {i i1 i2 : Iface} {buf : Vector FrameT FramesLen}
    {outs1 outs2 : List (Result × List FrameT)} {fs : List FrameT} (he : RealErr r)
    (h1 : Serves r i (rxEvs fd s es1 ++ [.read buf]) (outs1 ++ [(.SuccessNothing, fs)]) r1 i1)
    (h2 : Serves r1 i1 (rxEvs fd ((kernelPart es1).foldl (Sock.step fd) s) es2) outs2 r2 i2) : GetsOnly l x es2 outs2 r2 := by
  have he1 := serves_realErr h1 he
  have hq : r1.queue = [] := by
    obtain ⟨ra, ia, o1, o2, a, b, c⟩ := serves_append h1
    have hea := serves_realErr b he
    cases c with
    | read c1 c2 c3 =>
      cases c3
      obtain ⟨-, a2⟩ := List.append_inj' a rfl
      simp only [List.cons.injEq, Prod.mk.injEq, and_true] at a2
      obtain ⟨ans', r1', o', x1, x2, x3, t', x4, x5, y1, y2, y3, y4, y5⟩ := read_once ra hea ia buf
      rw [c1] at x1
      cases x1
      rw [c2] at x2
      cases x2
      have hn := (y2.1 a2.1.symm).2
      rw [hn] at x4
      exact (List.append_eq_nil_iff.1 x4.symm).2
  have hs' := set_after es1 hk1 s hs
  obtain ⟨taken, a, b⟩ := C109_once_partial h2 he1
  rw [hq, List.nil_append] at a
  have hw := arrived_accepted hl es2 hk2 _ hs'
  refine ⟨⟨taken.filter fun m => Delivers m.frame.can_id, ?_, b⟩, ?_⟩
  · rw [← arrived_wants hl es2 hk2 _ hs', a, List.filter_append]
    congr 1
    refine List.filter_congr fun m hm => ?_
    by_cases hd : Delivers m.frame.can_id = true
    · have := hw m (by rw [a]; exact List.mem_append_right _ hm) hd
      rw [hd]; simp [this]
    · have : ¬ Wants l m.frame.can_id := fun h => hd ((receives_wants hl fd _).2 h).2
      rw [Bool.not_eq_true] at hd
      rw [hd]; simp [this]
  · intro f hf
    obtain ⟨n, hn⟩ := List.getElem?_of_mem hf
    have hlt : n < (taken.filter fun m => Delivers m.frame.can_id).length := by
      rw [b.1]; exact (List.getElem?_eq_some_iff.1 hn).1
    have hm := List.getElem?_eq_getElem hlt
    have hmem := List.mem_filter.1 (List.getElem_mem hlt)
    obtain ⟨-, -, -, p, hp, -, -, hpm⟩ := hw _ (by rw [a]; exact List.mem_append_left _ hmem.1) hmem.2
    exact ⟨p, hp, by rw [(b.2 n _ f hm hn).1]; exact hpm⟩

/-- C131: after a group was started. Whatever arrived while it was started (`es0`) and until the application read `SuccessNothing` from an interface (`es1`), from then on it gets exactly
the frames that arrive on this interface and match the filters. -/
theorem C131_after_start (m : Manager) (l : List Filter) (out : Option Group) (ans : Nat → OpenAns) (fuel : Nat)
    (res : Result) (g : Group) (es0 es1 es2 : List LEv) (o : List Int) (hl : l.length < 2 ^ 29)
    (h : m.startInterfaceGroup (some l) l.length out ans fuel = some (.ok (res, some g, progOf (kernelPart es0)))) (hs : res.isSuccess = true)
    (ho : o.Nodup) (hsub : ∀ fd ∈ owned out, fd ∈ o) (hfr : Fresh o (progOf (kernelPart es0))) (i : Iface) (hi : i ∈ g.interfaces)
    (hk1 : ∀ e ∈ es1, Keeps i.fd e) (hk2 : ∀ e ∈ es2, Keeps i.fd e) {r r1 r2 : RxSock} {i0 i1 i2 : Iface} {buf : Vector FrameT FramesLen}
    {outs1 outs2 : List (Result × List FrameT)} {fs : List FrameT} (he : RealErr r)
    (h1 : Serves r i0 (rxEvs i.fd (sockAfter i.fd (kernelPart es0)) es1 ++ [.read buf]) (outs1 ++ [(.SuccessNothing, fs)]) r1 i1)
    (h2 : Serves r1 i1 (rxEvs i.fd (sockAfter i.fd (kernelPart (es0 ++ es1))) es2) outs2 r2 i2) : GetsOnly l (ans i.index).ifindex es2 outs2 r2 := by
  have hgood : GoodFilters (some l) l.length := .inr ⟨by omega, l, rfl, Nat.le_refl _⟩
  obtain ⟨-, -, hcalls, -⟩ := start_calls hgood h hs o ho hsub hfr i hi
  rw [← calls_sockAfter] at hcalls
  refine gets_only (i2 := i2) hl (boundTo_setup hcalls) hk1 hk2 he h1 ?_
  rw [kernelPart, List.filterMap_append, sockAfter, List.foldl_append] at h2
  exact h2

/-- C131: after filters were changed. Whatever happened before (`es0`), while they were changed (`es`) and until the application read `SuccessNothing` from an interface (`es1`), from then
on it gets exactly the frames that arrive on the network interface its socket is bound to and match the new filters. -/
theorem C131_after_reconfigure (g : Group) (hg : g.interfaces.length ≤ 255) (l : List Filter) (ans : Nat → Int) (fuel : Nat)
    (res : Result) (calls : List SetFilter) (es0 es es1 es2 : List LEv) (hl : l.length < 2 ^ 29)
    (h : g.reconfigureFilters (some l) l.length ans fuel = some (.ok (res, calls))) (hs : res.isSuccess = true)
    (hp : progOf (kernelPart es) = filterEvents calls) (i : Iface) (hi : i ∈ g.interfaces) (x : Int)
    (hb : (sockAfter i.fd (kernelPart (es0 ++ es))).boundTo = some x)
    (hk1 : ∀ e ∈ es1, Keeps i.fd e) (hk2 : ∀ e ∈ es2, Keeps i.fd e) {r r1 r2 : RxSock} {i0 i1 i2 : Iface} {buf : Vector FrameT FramesLen}
    {outs1 outs2 : List (Result × List FrameT)} {fs : List FrameT} (he : RealErr r)
    (h1 : Serves r i0 (rxEvs i.fd (sockAfter i.fd (kernelPart (es0 ++ es))) es1 ++ [.read buf]) (outs1 ++ [(.SuccessNothing, fs)]) r1 i1)
    (h2 : Serves r1 i1 (rxEvs i.fd (sockAfter i.fd (kernelPart (es0 ++ es ++ es1))) es2) outs2 r2 i2) : GetsOnly l x es2 outs2 r2 := by
  have hset : (sockAfter i.fd (kernelPart (es0 ++ es))).filterSet = some (filterCall (some l) l.length i.fd) := by
    rw [kernelPart, List.filterMap_append]
    exact reconf_set g hg l ans fuel res calls _ _ hl h hs hp i hi
  refine gets_only (i2 := i2) hl ⟨hb, hset⟩ hk1 hk2 he h1 ?_
  rw [kernelPart, List.filterMap_append, sockAfter, List.foldl_append] at h2
  exact h2

/-- A group with one interface is started with a filter for identifier 1; a frame with identifier 2 arrives just after its socket was bound. -/
def raceLife : List LEv :=
  [.prog (.opened 3), .prog (.call 3 (.ifindex "can0")), .prog (.call 3 (.bind 1)), .arrive 1 (dataMsg 2 8)] ++
  ([.timestamp, .rxqOvfl, .errFilter, .soError, SockCall.filters ⟨3, [⟨0x80000001, 0x9FFFFFFF⟩], 8⟩].map fun c => .prog (.call 3 c))

/-- Frames with identifiers 3 and 1 arrive there, and one with identifier 1 elsewhere. -/
def later (buf : Vector FrameT FramesLen) : List LEv := [.arrive 1 (dataMsg 3 8), .arrive 1 (dataMsg 1 8), .arrive 2 (dataMsg 1 8), .read buf]

/-- C131: discarding is needed: without it the application gets the frame that no filter matches. -/
theorem C131_needed (i : Iface) (buf : Vector FrameT FramesLen) :
    ∃ (m : Manager) (g : Group), m.startInterfaceGroup (some [⟨1, 0x1FFFFFFF⟩]) 1 none (fun _ => { socket := 3 }) 2 = some (.ok (.Success, some g, progOf (kernelPart raceLife))) ∧
      (g.interfaces.map (·.fd)) = [3] ∧
      ∃ f r' i', Serves ⟨[], none⟩ i (rxEvs 3 ⟨[], []⟩ (raceLife ++ [.read buf])) [(.Success, [f])] r' i' ∧ ∀ p ∈ [(⟨1, 0x1FFFFFFF⟩ : Filter)], ¬ Matches p f.id := by
  refine ⟨⟨["can0"], false, false⟩, ⟨[Iface.mk' 0 "can0" 3]⟩, rfl, rfl, ?_⟩
  have hev : rxEvs 3 ⟨[], []⟩ (raceLife ++ [.read buf]) = [.arrive [dataMsg 2 8], .read buf] := rfl
  rw [hev]
  obtain ⟨res, fs, r', s', h1, -, -, -, h5, -, h7⟩ := C109_results_partial ⟨[dataMsg 2 8], none⟩ (fun e h => by cases h) i buf
  have hres := h5.2 ⟨rfl, by simp⟩
  subst hres
  have hlen := h7.1
  match fs, hlen, h1, h7 with
  | [f], _, h1, h7 =>
    refine ⟨f, r', s', .arrive h1, fun p hp => ?_⟩
    have hid := (h7.2 0 (dataMsg 2 8) f rfl rfl).1
    rw [List.mem_singleton.1 hp, hid]
    decide

/-- What `C131_after_start` says of this group: one more `read` finds the frame with identifier 2, the next nothing, and from then on only identifier 1 is received. -/
example (i : Iface) (buf : Vector FrameT FramesLen) : ∃ o1 r1 i1 o2 r2 i2,
    Serves ⟨[dataMsg 2 8], none⟩ i (rxEvs 3 (sockAfter 3 (kernelPart raceLife)) [.read buf] ++ [.read buf]) ([o1] ++ [(.SuccessNothing, [])]) r1 i1 ∧
    Serves r1 i1 (rxEvs 3 (sockAfter 3 (kernelPart (raceLife ++ [.read buf]))) (later buf)) [o2] r2 i2 ∧
    r2.queue = [] ∧ AllFrom [dataMsg 1 8] o2.2 := by
  have one : ∀ (q : List RxMsg) (j : Iface), q.length ≤ 4 → ∃ res fs j', Serves ⟨q, none⟩ j [.read buf] [(res, fs)] ⟨[], none⟩ j' ∧
      (q = [] → res = .SuccessNothing ∧ fs = []) := by
    intro q j hq
    obtain ⟨res, fs, r', j', h1, h2, h3, h4, h5, h6, h7⟩ := C109_results_partial ⟨q, none⟩ (fun e h => by cases h) j buf
    obtain ⟨rq, re⟩ := r'
    dsimp only at h2 h6
    subst h2
    have hd : q.drop 4 = [] := List.drop_eq_nil_of_le hq
    have : rq = [] := by
      by_cases hn : q = []
      · subst hn; rw [h6]; simp
      · rw [h6, if_pos (h5.2 ⟨rfl, hn⟩), hd]
    subst this
    refine ⟨res, fs, j', h1, fun hn => ?_⟩
    subst hn
    have hr := h4.2 ⟨rfl, rfl⟩
    subst hr
    exact ⟨rfl, List.eq_nil_of_length_eq_zero h7.1.symm⟩
  obtain ⟨ra, fa, ja, a, -⟩ := one [dataMsg 2 8] i (by simp)
  obtain ⟨rb, fb, jb, b, hb⟩ := one [] ja (by simp)
  obtain ⟨rfl, rfl⟩ := hb rfl
  obtain ⟨rc, fc, jc, c, -⟩ := one [dataMsg 1 8] jb (by simp)
  have h : Serves ⟨[dataMsg 2 8], none⟩ i (rxEvs 3 (sockAfter 3 (kernelPart raceLife)) [.read buf] ++ [.read buf]) ([(ra, fa)] ++ [(.SuccessNothing, [])]) ⟨[], none⟩ jb := by
    cases a with
    | read a1 a2 a3 =>
      cases a3
      exact .read a1 a2 b
  have h2 : Serves ⟨[], none⟩ jb (rxEvs 3 (sockAfter 3 (kernelPart (raceLife ++ [.read buf]))) (later buf)) [(rc, fc)] ⟨[], none⟩ jc := Serves.arrive c
  refine ⟨(ra, fa), _, jb, (rc, fc), _, jc, h, h2, rfl, ?_⟩
  obtain ⟨⟨got, e1, e2⟩, -⟩ := C131_after_start ⟨["can0"], false, false⟩ [⟨1, 0x1FFFFFFF⟩] none (fun _ => { socket := 3 }) 2 .Success ⟨[Iface.mk' 0 "can0" 3]⟩ raceLife
    [.read buf] (later buf) [0, 1, 2] (by decide) rfl rfl (by decide) (by simp [owned]) (by simp [Fresh, raceLife, progOf, kernelPart, LEv.kernel]) (Iface.mk' 0 "can0" 3)
    (List.mem_singleton.2 rfl) (by simp [Keeps]) (by simp [Keeps, later]) (r := ⟨[dataMsg 2 8], none⟩) (fun e h => nomatch h) h h2
  have hw : (arrivalsAt 1 (later buf)).filter (fun m => Wants [⟨1, 0x1FFFFFFF⟩] m.frame.can_id) = [dataMsg 1 8] := by
    show [dataMsg 3 8, dataMsg 1 8].filter (fun m => Wants [⟨1, 0x1FFFFFFF⟩] m.frame.can_id) = [dataMsg 1 8]
    decide
  have e1' : [dataMsg 1 8] = got := by rw [← hw]; simpa using e1
  subst e1'
  simpa using e2

end Uavcan.SocketCan
