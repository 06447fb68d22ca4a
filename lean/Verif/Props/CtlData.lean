import Verif.Lemmas.CtlData
import Verif.Props.SocketCan

/-!
# C98: control data is used only if it is there
-/

namespace Uavcan.SocketCan
open Can Time Spec

/-- What `read` should do with messages and their control messages `cs`: deliver the frames with the time of their last time
stamp, and add the drop counts. -/
def ReadsControl (s : CIface) (out : Vector FrameT FramesLen) (e : Int) (ms : List (RawMsg × List CtlMsg)) : Prop :=
  ∃ r ds, s.read out { res := ms.length, errno := e, msgs := ms.map Prod.fst } = .ok r ∧
    ds = ms.filter (fun m => Delivers m.1.frame.can_id) ∧ r.result = .Success ∧ r.read = ds.length ∧
    (∀ j (h : j < 4) (hd : j < ds.length),
      r.out_frames[j].id = ds[j].1.frame.can_id ∧
      r.out_frames[j].timestamp.toMicrosecond = ((ctlMicros ds[j].2 % 2 ^ 64 : Nat) : Int)) ∧
    r.iface.iface.stats.rx_dropped.toNat =
      (s.iface.stats.rx_dropped.toNat + (ms.map fun m => ctlDrops m.2).sum) % 2 ^ 64

/-- C98: for every interface and every control data the kernel can leave (within the buffer, made of control messages),
`read` has a defined behaviour, and takes times and drop counts from the control messages only. -/
def C98_Statement : Prop :=
  ∀ (s : CIface) (out : Vector FrameT FramesLen) (e : Int) (ms : List (RawMsg × List CtlMsg)),
    0 < ms.length → ms.length ≤ 4 → (∀ m ∈ ms, m.1.hdr.controllen ≤ 32 ∧ CtlData m.1.hdr.data m.2) →
    ReadsControl s out e ms

/-- C98, partial: true if every time stamp and every drop count is complete. Missing: messages of these types which are too
short, see `C98_full_statement_fails`. -/
theorem C98_read_partial (s : CIface) (out : Vector FrameT FramesLen) (e : Int) (ms : List (RawMsg × List CtlMsg))
    (h0 : 0 < ms.length) (h4 : ms.length ≤ 4) (hm : ∀ m ∈ ms, m.1.hdr.controllen ≤ 32 ∧ CtlData m.1.hdr.data m.2)
    (hw : ∀ m ∈ ms, ∀ c ∈ m.2, c.Whole) : ReadsControl s out e ms := by
  let f : RawMsg × List CtlMsg → RxMsg := fun m => ⟨m.1.classic, m.1.frame, m.2.map CtlMsg.abs⟩
  have hlen : (ms.map Prod.fst).length = ms.length := List.length_map ..
  have key := read_abs s out e (ms.map Prod.fst) (ms.map f) (by omega) (by omega) (by simp) (by
    intro k h1 h2
    rw [hlen] at h1
    simp only [List.getElem_map]
    refine ⟨rfl, rfl, fun st => ?_⟩
    have hk := hm ms[k] (List.getElem_mem h1)
    exact readCtl_data _ st hk.1 hk.2 (hw ms[k] (List.getElem_mem h1)))
  rw [hlen, List.length_map] at key
  obtain ⟨r, hr, -, g⟩ := read_ok s.iface out { res := ms.length, errno := e, msgs := ms.map f }
    ⟨by show (ms.length : Int) ≤ 4; omega, fun _ => by show ((ms.map f).length : Int) = ms.length; rw [List.length_map]⟩
  obtain ⟨g1, g2, -, -, g5, g6⟩ := g (by show (0 : Int) < ms.length; omega)
  rw [hr, Outcome.ok_bind] at key
  have hds : delivered (ms.map f) = (ms.filter (fun m => Delivers m.1.frame.can_id)).map f := by
    unfold delivered
    rw [List.filter_map]
    rfl
  simp only [hds, List.length_map, List.getElem_map] at g2 g5
  refine ⟨_, _, key, rfl, g1, g2, ?_, ?_⟩
  · intro j h hd
    obtain ⟨d1, -, d3, -⟩ := g5 j hd h
    refine ⟨d1, ?_⟩
    show r.out_frames[j].timestamp.toMicrosecond = _
    rw [d3]
    exact toMicrosecond_abs _
  · show r.iface.stats.rx_dropped.toNat = _
    rw [g6]
    show ((ms.map f).foldl statsAfter s.iface.stats).rx_dropped.toNat = _
    rw [foldl_dropped, BitVec.toNat_add, sum64_toNat]
    have hsum : ∀ l : List (RawMsg × List CtlMsg),
        (((l.map f).flatMap fun m => dropsOf m.cmsgs).map BitVec.toNat).sum = (l.map fun m => ctlDrops m.2).sum := by
      intro l
      induction l with
      | nil => rfl
      | cons m l ih =>
        rw [List.map_cons, List.flatMap_cons, List.map_append, List.sum_append, ih, List.map_cons, List.sum_cons]
        congr 1
        show ((dropsOf (m.2.map CtlMsg.abs)).map BitVec.toNat).sum = _
        rw [dropsOf_abs]
        rfl
    rw [hsum]
    omega

/-- C98, partial: for every control data at all (made of control messages or not), within the buffer, the behaviour is
undefined exactly if in some message an empty control message is followed by the header, and nothing but the header, of a
time stamp or drop count. -/
theorem C98_defined_partial (s : CIface) (out : Vector FrameT FramesLen) (e : Int) (raw : List RawMsg)
    (h0 : 0 < raw.length) (h4 : raw.length ≤ 4) (hm : ∀ m ∈ raw, m.hdr.controllen ≤ 32) :
    (∃ u, s.read out { res := raw.length, errno := e, msgs := raw } = .ub u) ↔
      ∃ m ∈ raw, EmptyThenHeader m.hdr.data := by
  constructor
  · rintro ⟨u, hu⟩
    apply Classical.byContradiction
    intro hno
    have hcs : ∀ m ∈ raw, ∃ cs, ∀ st, readCtl m.hdr st = .ok (readCmsgs TimePoint.default st cs) := by
      intro m hmem
      rcases readCtl_abs m.hdr with h | ⟨u, h⟩
      · exact h
      · exact absurd ⟨m, hmem, (readCtl_ub m.hdr s.iface.stats (hm m hmem)).1 ⟨u, h _⟩⟩ hno
    have hex : ∀ l : List RawMsg, (∀ m ∈ l, m ∈ raw) → ∃ ms : List RxMsg, l.length = ms.length ∧
        ∀ k (h1 : k < l.length) (h2 : k < ms.length), l[k].classic = ms[k].classic ∧ l[k].frame = ms[k].frame ∧
          ∀ st, readCtl l[k].hdr st = .ok (readCmsgs TimePoint.default st ms[k].cmsgs) := by
      intro l
      induction l with
      | nil => intro _; exact ⟨[], rfl, fun k h1 => absurd h1 (by simp)⟩
      | cons m l ih =>
        intro hl
        obtain ⟨ms, hlen, hk⟩ := ih (fun x hx => hl x (List.mem_cons_of_mem _ hx))
        obtain ⟨cs, hc⟩ := hcs m (hl m (List.mem_cons_self ..))
        refine ⟨⟨m.classic, m.frame, cs⟩ :: ms, by simp [hlen], ?_⟩
        intro k h1 h2
        cases k with
        | zero => exact ⟨rfl, rfl, hc⟩
        | succ k => exact hk k (by simpa using h1) (by simpa using h2)
    obtain ⟨ms, hlen, hk⟩ := hex raw (fun _ h => h)
    rw [read_abs s out e raw ms h0 h4 hlen hk] at hu
    obtain ⟨r, hr, -⟩ := read_ok s.iface out { res := ms.length, errno := e, msgs := ms }
      ⟨by show (ms.length : Int) ≤ 4; omega, fun _ => rfl⟩
    rw [hr, Outcome.ok_bind] at hu
    cases hu
  · rintro ⟨m, hmem, he⟩
    obtain ⟨k, hk, rfl⟩ := List.getElem_of_mem hmem
    apply read_ub s out e raw h4 k hk
    rcases readCtl_abs raw[k].hdr with ⟨cs, h⟩ | h
    · obtain ⟨u, hu⟩ := (readCtl_ub raw[k].hdr s.iface.stats (hm _ hmem)).2 he
      rw [h] at hu
      cases hu
    · exact h

/-- C98, why the rest fails: a time stamp at the front of a buffer that is not full (so it lacks some or all of its data) is
taken at its word, and what earlier calls left in the buffer becomes the time of the frame. -/
theorem C98_stale (s : CIface) (out : Vector FrameT FramesLen) (e : Int) (m : RawMsg)
    (hd : Delivers m.frame.can_id = true) (h16 : 16 ≤ m.hdr.controllen) (hc : m.hdr.controllen < 32)
    (hlevel : leNat ((m.hdr.control.toList.drop 8).take 4) = 1)
    (htype : leNat ((m.hdr.control.toList.drop 12).take 4) = 29) :
    ∃ r, s.read out { res := 1, errno := e, msgs := [m] } = .ok r ∧ r.result = .Success ∧ r.read = 1 ∧
      r.out_frames[0].id = m.frame.can_id ∧
      r.out_frames[0].timestamp.toMicrosecond =
        (((leNat ((m.hdr.control.toList.drop 16).take 8) * 1000000 +
          leNat ((m.hdr.control.toList.drop 24).take 8)) % 2 ^ 64 : Nat) : Int) := by
  let x : RxMsg := ⟨m.classic, m.frame, [.timestamp (BitVec.ofNat 64 (leNat ((m.hdr.control.toList.drop 16).take 8)))
        (BitVec.ofNat 64 (leNat ((m.hdr.control.toList.drop 24).take 8)))]⟩
  have key := read_abs s out e [m] [x] (by simp) (by simp) rfl (by
    intro k h1 h2
    have hk : k = 0 := by simp at h1; omega
    subst hk
    exact ⟨rfl, rfl, fun st => readCtl_stale m.hdr st h16 hc hlevel htype⟩)
  obtain ⟨r, hr, -, g⟩ := read_ok s.iface out { res := 1, errno := e, msgs := [x] } ⟨by show (1 : Int) ≤ 4; decide, fun _ => rfl⟩
  obtain ⟨g1, g2, -, -, g5, -⟩ := g (by show (0 : Int) < 1; decide)
  have hr' : s.iface.read out { res := (([x] : List RxMsg).length : Nat), errno := e, msgs := [x] } = .ok r := hr
  rw [hr', Outcome.ok_bind] at key
  have hds : delivered [x] = [x] := by
    unfold delivered
    rw [List.filter_cons, if_pos hd]
    rfl
  simp only [hds] at g2 g5
  obtain ⟨d1, -, d3, -⟩ := g5 0 (by simp) (by omega)
  refine ⟨_, key, g1, g2, d1, ?_⟩
  show r.out_frames[0].timestamp.toMicrosecond = _
  rw [d3]
  show ((_ : Nat) : Int) = _
  congr 1
  simp only [BitVec.toNat_add, BitVec.toNat_mul, BitVec.toNat_ofNat]
  omega

/-! ## Examples -/

/-- A control buffer with given bytes, zeros behind. -/
private def bufOf (bs : List Byte) : Vector Byte ControlSize := Vector.ofFn fun k => bs.getD k.val 0

private def iface0 : CIface := CIface.mk' 0 "vcan0" 3 (Vector.replicate 4 (Vector.replicate 32 0))

private def frame0 : CanfdFrame :=
  { can_id := 0x123#32, len := 0, flags := 0, res0 := 0, res1 := 0, data := Vector.replicate 64 0 }

private def noFrames : Vector FrameT FramesLen := Vector.replicate 4 Frame.default

/-- Two control messages without data: one of type 1, one of the type of time stamps. -/
private def twoEmpty : List CtlMsg := [⟨1, 1, []⟩, ⟨1, 29, []⟩]

private def twoEmptyMsg : RawMsg := ⟨true, frame0, ⟨bufOf (twoEmpty.flatMap CtlMsg.bytes), 32⟩⟩

private theorem twoEmpty_data : CtlData twoEmptyMsg.hdr.data twoEmpty := by
  have h : twoEmptyMsg.hdr.data = CtlMsg.bytes ⟨1, 1, []⟩ ++ [] ++ (CtlMsg.bytes ⟨1, 29, []⟩ ++ [] ++ []) := by decide
  rw [h]
  exact .more _ _ _ _ ⟨by decide, by decide⟩ (by decide) (by decide)
    (.more _ _ _ _ ⟨by decide, by decide⟩ (by decide) (by decide) (.none _ (by decide)))

/-- C98 is false of the code: if the kernel leaves two control messages without data, the second of the type of time stamps,
`read` reads behind the buffer. -/
theorem C98_full_statement_fails : ¬ C98_Statement := by
  intro h
  obtain ⟨r, -, hr, -⟩ := h iface0 noFrames 0 [(twoEmptyMsg, twoEmpty)] (by decide) (by decide) (by
    intro m hm
    rw [List.mem_singleton] at hm
    subst hm
    exact ⟨by decide, twoEmpty_data⟩)
  obtain ⟨u, hu⟩ := (C98_defined_partial iface0 noFrames 0 [twoEmptyMsg] (by decide) (by decide) (by
    intro m hm
    rw [List.mem_singleton] at hm
    subst hm
    decide)).2 ⟨twoEmptyMsg, by simp, by unfold EmptyThenHeader; decide⟩
  have hr' : iface0.read noFrames { res := ([twoEmptyMsg].length : Nat), errno := 0, msgs := [twoEmptyMsg] } = .ok r := hr
  rw [hu] at hr'
  cases hr'

/-- A time stamp of 5.000007 s behind which there is no room for anything else. -/
private def stampCtl : CtlMsg := ⟨1, 29, leBytes 8 5 ++ leBytes 8 7⟩

/-- A drop count of 3, without its padding. -/
private def dropCtl : CtlMsg := ⟨1, 40, leBytes 4 3⟩

/-- `C98_read_partial` for two messages: one with a time stamp, one with a drop count. -/
example : ∃ ms : List (RawMsg × List CtlMsg), ms.length = 2 ∧ (∀ m ∈ ms, m.1.hdr.controllen ≤ 32 ∧ CtlData m.1.hdr.data m.2) ∧
    (∀ m ∈ ms, ∀ c ∈ m.2, c.Whole) ∧ ms.map (fun m => ctlMicros m.2) = [5000007, 0] ∧
    ms.map (fun m => ctlDrops m.2) = [0, 3] := by
  refine ⟨[(⟨true, frame0, ⟨bufOf stampCtl.bytes, 32⟩⟩, [stampCtl]), (⟨true, frame0, ⟨bufOf dropCtl.bytes, 20⟩⟩, [dropCtl])],
    rfl, ?_, ?_, by decide, by decide⟩
  · intro m hm
    simp only [List.mem_cons, List.not_mem_nil, or_false] at hm
    rcases hm with rfl | rfl
    · refine ⟨by decide, ?_⟩
      have h : (Hdr.data ⟨bufOf stampCtl.bytes, 32⟩) = stampCtl.bytes ++ [] ++ [] := by decide
      show CtlData (Hdr.data ⟨bufOf stampCtl.bytes, 32⟩) _
      rw [h]
      exact .more _ _ _ _ ⟨by decide, by decide⟩ (by decide) (by decide) (.none _ (by decide))
    · refine ⟨by decide, ?_⟩
      have h : (Hdr.data ⟨bufOf dropCtl.bytes, 20⟩) = dropCtl.bytes ++ [] := by decide
      show CtlData (Hdr.data ⟨bufOf dropCtl.bytes, 20⟩) _
      rw [h]
      exact .last _ _ ⟨by decide, by decide⟩ (by decide)
  · intro m hm c hc
    simp only [List.mem_cons, List.not_mem_nil, or_false] at hm
    rcases hm with rfl | rfl <;> (rw [List.mem_singleton] at hc; subst hc; decide)

/-- `C98_stale`: a time stamp without data (16 bytes of control data), after a message stamped 5.000007 s: the frame gets the
time of the earlier one. -/
example : ∃ r, iface0.read noFrames
      { res := 1, errno := 0, msgs := [⟨true, frame0, ⟨bufOf (CtlMsg.bytes ⟨1, 29, []⟩ ++ stampCtl.data), 16⟩⟩] } = .ok r ∧
    r.out_frames[0].timestamp.toMicrosecond = 5000007 ∧ ctlMicros [⟨1, 29, []⟩] = 0 := by
  obtain ⟨r, hr, -, -, -, ht⟩ := C98_stale iface0 noFrames 0
    ⟨true, frame0, ⟨bufOf (CtlMsg.bytes ⟨1, 29, []⟩ ++ stampCtl.data), 16⟩⟩ (by decide) (by decide) (by decide) (by decide)
    (by decide)
  refine ⟨r, hr, ?_, by decide⟩
  rw [ht]
  decide

end Uavcan.SocketCan
