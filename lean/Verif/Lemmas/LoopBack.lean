import Verif.Spec.LoopBack
import Verif.Lemmas.SocketManager
import Verif.Props.SocketGroup

namespace Uavcan.SocketCan
open Can Time Spec

/-- The word that records the two test frames. -/
def wordOf (p q : Bool) : BitVec 32 := BitVec.ofNat 32 (p.toNat + 2 * q.toNat)

/-- A frame equals the `j`-th test frame. -/
def Match (j : Nat) (f : FrameT) : Prop := canId29 f.id = j + 1 ∧ f.dlc = 0

instance (j : Nat) (f : FrameT) : Decidable (Match j f) := by unfold Match; infer_instance

theorem testFrames_eq : ∃ ts, testFrames = .ok ts ∧ (ts[0]'(by decide)).id = 1 ∧ (ts[0]'(by decide)).dlc = 0 ∧
    (ts[1]'(by decide)).id = 2 ∧ (ts[1]'(by decide)).dlc = 0 := ⟨_, rfl, rfl, rfl, rfl, rfl⟩

theorem eq_test (f t : FrameT) (j : Nat) (hj : j < 2) (ht : t.id = BitVec.ofNat 32 (j + 1)) (hd : t.dlc = 0) :
    f.eq 0 t = .ok (decide (Match j f)) := by
  have hm : MaskIdWithFlags 0 = MaskExtID := by decide
  have hid : (f.id &&& MaskExtID = t.id &&& MaskExtID) ↔ canId29 f.id = j + 1 := by
    rw [← BitVec.toNat_inj, and_maskExt_toNat, and_maskExt_toNat, ht]
    have : canId29 (BitVec.ofNat 32 (j + 1)) = j + 1 := by
      rcases (by omega : j = 0 ∨ j = 1) with rfl | rfl <;> decide
    rw [this]
  unfold Frame.eq
  rw [hm]
  by_cases h1 : f.id &&& MaskExtID = t.id &&& MaskExtID
  · rw [if_pos h1]
    by_cases h2 : f.dlc = 0
    · rw [if_pos (by rw [h2, hd]), h2]
      have : dlcToLength 0 = 0 := by decide
      rw [this]
      simp only [equal, Nat.zero_le, if_true, equalBytes]
      rw [decide_eq_true]
      exact ⟨hid.1 h1, h2⟩
    · rw [if_neg (by rw [hd]; exact h2), decide_eq_false]
      exact fun h => h2 h.2
  · rw [if_neg h1, decide_eq_false]
    exact fun h => h1 (hid.2 h.1)

theorem evalBit_zero (f t : FrameT) (ht : t.id = 1) (hd : t.dlc = 0) (p q : Bool) :
    evalBit f t 0 (wordOf p q) = .ok (wordOf (p || decide (Match 0 f)) q) := by
  unfold evalBit
  rw [eq_test f t 0 (by decide) ht hd]
  generalize decide (Match 0 f) = b
  revert p q b; decide

theorem evalBit_one (f t : FrameT) (ht : t.id = 2) (hd : t.dlc = 0) (p q : Bool) :
    evalBit f t 1 (wordOf p q) = .ok (wordOf p (q || decide (Match 1 f))) := by
  unfold evalBit
  rw [eq_test f t 1 (by decide) ht hd]
  generalize decide (Match 1 f) = b
  revert p q b; decide

theorem evalFrames_ok (ts frames : Vector FrameT FramesLen) (h0 : (ts[0]'(by decide)).id = 1) (h0' : (ts[0]'(by decide)).dlc = 0)
    (h1 : (ts[1]'(by decide)).id = 2) (h1' : (ts[1]'(by decide)).dlc = 0) (n i : Nat) (hn : i + n ≤ 4) (p q : Bool) :
    ∃ p' q', evalFrames ts frames n i (wordOf p q) = .ok (wordOf p' q') ∧
      (p' = true ↔ p = true ∨ ∃ k, ∃ (h : k < 4), i ≤ k ∧ k < i + n ∧ Match 0 frames[k]) ∧
      (q' = true ↔ q = true ∨ ∃ k, ∃ (h : k < 4), i ≤ k ∧ k < i + n ∧ Match 1 frames[k]) := by
  induction n generalizing i p q with
  | zero =>
    refine ⟨p, q, rfl, ?_, ?_⟩
    · constructor
      · exact .inl
      · rintro (h | ⟨k, _, h1, h2, _⟩)
        · exact h
        · omega
    · constructor
      · exact .inl
      · rintro (h | ⟨k, _, h1, h2, _⟩)
        · exact h
        · omega
  | succ n ih =>
    have hi : i < FramesLen := by simp only [FramesLen]; omega
    obtain ⟨p', q', e, hp, hq⟩ := ih (i + 1) (by omega) (p || decide (Match 0 frames[i])) (q || decide (Match 1 frames[i]))
    refine ⟨p', q', ?_, ?_, ?_⟩
    · simp only [evalFrames, hi, dif_pos]
      rw [evalBit_zero _ _ h0 h0', Outcome.ok_bind, evalBit_one _ _ h1 h1', Outcome.ok_bind, e]
    all_goals
      first | rw [hp] | rw [hq]
      simp only [Bool.or_eq_true, decide_eq_true_eq]
      constructor
      · rintro ((h | h) | ⟨k, hk, a, b, c⟩)
        · exact .inl h
        · exact .inr ⟨i, hi, by omega, by omega, h⟩
        · exact .inr ⟨k, hk, by omega, by omega, c⟩
      · rintro (h | ⟨k, hk, a, b, c⟩)
        · exact .inl (.inl h)
        · by_cases hki : k = i
          · subst hki; exact .inl (.inr c)
          · exact .inr ⟨k, hk, by omega, by omega, c⟩

/-- The record of frames found says exactly what `S` does. -/
def Records (found : List (BitVec 32)) (c : Nat) (S : Nat → Nat → Prop) : Prop :=
  found.length = c ∧ ∀ i, i < c → ∃ p q, found[i]? = some (wordOf p q) ∧ (p = true ↔ S i 0) ∧ (q = true ↔ S i 1)

/-- Test frame `j` is among the messages of an answer. -/
def Back (ans : RecvAns) (j : Nat) : Prop := ∃ m ∈ got ans, IsTest j m

theorem evaluate_ok (lb : LoopBackTest) (c : Nat) (S : Nat → Nat → Prop) (hr : Records lb.found c S) (i : Nat) (hi : i < c)
    (frames : Vector FrameT FramesLen) (n : Nat) (hn : n ≤ 4) :
    ∃ lb', lb.evaluate i frames n = .ok lb' ∧ lb'.result = lb.result ∧ lb'.continuous = lb.continuous ∧
      Records lb'.found c (fun i' j => S i' j ∨ (i' = i ∧ ∃ k, ∃ (h : k < 4), k < n ∧ Match j frames[k])) := by
  obtain ⟨hlen, hrec⟩ := hr
  obtain ⟨p, q, hw, hp, hq⟩ := hrec i hi
  unfold LoopBackTest.evaluate
  rw [hw]
  by_cases h3 : wordOf p q = 3#32
  · refine ⟨lb, by simp only [h3, ne_eq, not_true, if_false], rfl, rfl, hlen, ?_⟩
    have hpq : p = true ∧ q = true := by
      clear hw hp hq
      revert h3 p q; decide
    intro i' hi'
    by_cases he : i' = i
    · subst he
      refine ⟨p, q, hw, ?_, ?_⟩
      · simp only [hpq.1, true_iff]; exact .inl (hp.1 hpq.1)
      · simp only [hpq.2, true_iff]; exact .inl (hq.1 hpq.2)
    · obtain ⟨p', q', a, b, c⟩ := hrec i' hi'
      refine ⟨p', q', a, ?_, ?_⟩
      · rw [b]; simp [he]
      · rw [c]; simp [he]
  · obtain ⟨ts, e, t0, t0', t1, t1'⟩ := testFrames_eq
    obtain ⟨p', q', e2, hp', hq'⟩ := evalFrames_ok ts frames t0 t0' t1 t1' n 0 (by omega) p q
    refine ⟨{ lb with found := lb.found.set i (wordOf p' q') }, ?_, rfl, rfl, ?_, ?_⟩
    · simp only [h3, ne_eq, not_false_eq_true, if_true, e, Outcome.ok_bind, e2, Outcome.pure_eq]
    · rw [List.length_set]; exact hlen
    · intro i' hi'
      by_cases he : i' = i
      · subst he
        refine ⟨p', q', List.getElem?_set_self (by omega), ?_, ?_⟩
        · rw [hp', hp]; simp
        · rw [hq', hq]; simp
      · obtain ⟨p', q', a, b, c⟩ := hrec i' hi'
        refine ⟨p', q', ?_, ?_, ?_⟩
        · rw [List.getElem?_set_ne (fun h => he h.symm)]; exact a
        · rw [b]; simp [he]
        · rw [c]; simp [he]

theorem isTest_delivers {j : Nat} {m : RxMsg} (h : IsTest j m) : Delivers m.frame.can_id = true := by
  obtain ⟨h1, h2, -⟩ := h
  simp only [IsErr] at h1
  simp only [Delivers, h1, Bool.not_false, Bool.true_and, bne_iff_ne, ne_eq]
  omega

theorem decoded_match {j : Nat} {m : RxMsg} {f : FrameT} (h : Decoded m f) (hd : Delivers m.frame.can_id = true) :
    Match j f ↔ IsTest j m := by
  obtain ⟨h1, h2, -⟩ := h
  have he : IsErr m.frame.can_id = false := by
    simp only [Delivers, Bool.and_eq_true, Bool.not_eq_true'] at hd
    exact hd.1
  simp only [Match, IsTest, h1, h2, he, true_and]
  constructor
  · rintro ⟨a, b⟩; exact ⟨a, BitVec.eq_of_toNat_eq b⟩
  · rintro ⟨a, b⟩; exact ⟨a, by rw [b]; rfl⟩

/-- What `read` gives the loop: the frames that match are the test frames among the messages. -/
theorem groupRead_ok (g : Group) (i : Nat) (hi : i < g.interfaces.length) (frames : Vector FrameT FramesLen) (ans : RecvAns)
    (hv : ValidRecv ans) :
    ∃ r, g.read i frames 0 ans = .ok r ∧ r.group.interfaces.length = g.interfaces.length ∧ r.read ≤ 4 ∧
      ((!(r.result.not) && decide (0 < r.read)) = false → ∀ j, ¬ Back ans j) ∧
      ((!(r.result.not) && decide (0 < r.read)) = true →
        ∀ j, (∃ k, ∃ (h : k < 4), k < r.read ∧ Match j r.out_frames[k]) ↔ Back ans j) := by
  obtain ⟨r, e, hneg, hpos⟩ := read_ok g.interfaces[i] frames ans hv
  refine ⟨{ result := r.result, out_frames := r.out_frames, read := r.read, group := ⟨g.interfaces.set i r.iface⟩ }, ?_, ?_, ?_⟩
  · simp only [Group.read, List.getElem?_eq_getElem hi, e, Outcome.ok_bind, Outcome.pure_eq]
  · simp only [List.length_set]
  simp only
  by_cases h0 : ans.res ≤ 0
  · obtain ⟨a, -, -, -⟩ := hneg h0
    have hg : got ans = [] := if_pos h0
    refine ⟨by omega, fun _ j h => ?_, fun h => ?_⟩
    · obtain ⟨m, hm, -⟩ := h
      rw [hg] at hm; cases hm
    · simp [a] at h
  obtain ⟨a, b, c, -, d, -⟩ := hpos (by omega)
  have hg : got ans = ans.msgs := if_neg h0
  have hle : (delivered ans.msgs).length ≤ ans.msgs.length := List.length_filter_le _ _
  refine ⟨by omega, ?_⟩
  have hns : (!r.result.not) = true := by rw [a]; rfl
  rw [hns, Bool.true_and]
  refine ⟨fun hz j ⟨m, hm, ht⟩ => ?_, fun hz j => ?_⟩
  · simp only [decide_eq_false_iff_not] at hz
    have h0' : delivered ans.msgs = [] := List.eq_nil_of_length_eq_zero (by omega)
    have : m ∈ delivered ans.msgs := List.mem_filter.2 ⟨by rw [← hg]; exact hm, isTest_delivers ht⟩
    rw [h0'] at this; cases this
  · constructor
    · rintro ⟨k, hk, h1, h2⟩
      have hk' : k < (delivered ans.msgs).length := by omega
      have hmem := List.getElem_mem hk'
      have := List.mem_filter.1 hmem
      exact ⟨_, by rw [hg]; exact this.1, (decoded_match (d k hk' hk) this.2).1 h2⟩
    · rintro ⟨m, hm, ht⟩
      have hmem : m ∈ delivered ans.msgs := List.mem_filter.2 ⟨by rw [← hg]; exact hm, isTest_delivers ht⟩
      obtain ⟨k, hk, he⟩ := List.getElem_of_mem hmem
      exact ⟨k, by omega, by omega, (decoded_match (d k hk (by omega)) (by rw [he]; exact isTest_delivers ht)).2 (by rw [he]; exact ht)⟩

theorem records_congr {found : List (BitVec 32)} {c : Nat} {S T : Nat → Nat → Prop} (h : Records found c S)
    (hst : ∀ i j, i < c → j < 2 → (S i j ↔ T i j)) : Records found c T := by
  refine ⟨h.1, fun i hi => ?_⟩
  obtain ⟨p, q, a, b, d⟩ := h.2 i hi
  exact ⟨p, q, a, b.trans (hst i 0 hi (by omega)), d.trans (hst i 1 hi (by omega))⟩

/-- One round over the interfaces. -/
theorem readAll_ok (ans : Nat → RecvAns) (hv : ∀ i, ValidRecv (ans i)) (c n i : Nat) (hc : i + n = c) (g : Group)
    (hg : c ≤ g.interfaces.length) (frames : Vector FrameT FramesLen) (lb : LoopBackTest) (S : Nat → Nat → Prop)
    (hr : Records lb.found c S) (hS : lb.result = .Success → ∀ i j, i < c → j < 2 → S i j)
    (hres : lb.result = .Success ∨ lb.result = .Failure) :
    ∃ g' lb', readAll ans n i g frames lb = .ok (g', lb') ∧ g'.interfaces.length = g.interfaces.length ∧
      lb'.result = lb.result ∧ lb'.continuous = lb.continuous ∧
      Records lb'.found c (fun i' j => S i' j ∨ (i ≤ i' ∧ Back (ans i') j)) := by
  induction n generalizing i g frames lb S with
  | zero =>
    refine ⟨g, lb, rfl, rfl, rfl, rfl, records_congr hr ?_⟩
    intro i' j hi' _
    constructor
    · exact .inl
    · rintro (h | ⟨h, -⟩)
      · exact h
      · omega
  | succ n ih =>
    obtain ⟨r, e, hl, h4, hno, hyes⟩ := groupRead_ok g i (by omega) frames (ans i) (hv i)
    simp only [readAll, e, Outcome.ok_bind]
    cases hb : (!(r.result.not) && decide (0 < r.read)) with
    | false =>
      obtain ⟨g', lb', e', a, b, d, f⟩ := ih (i + 1) (by omega) r.group (by omega) r.out_frames lb S hr hS hres
      refine ⟨g', lb', by simp only [Bool.false_eq_true, if_false]; exact e', by omega, b, d, records_congr f ?_⟩
      intro i' j _ _
      constructor
      · rintro (h | ⟨h1, h2⟩)
        · exact .inl h
        · exact .inr ⟨by omega, h2⟩
      · rintro (h | ⟨h1, h2⟩)
        · exact .inl h
        · by_cases hi : i' = i
          · subst hi; exact absurd h2 (hno hb j)
          · exact .inr ⟨by omega, h2⟩
    | true =>
      rcases hres with hsu | hfa
      · obtain ⟨g', lb', e', a, b, d, f⟩ := ih (i + 1) (by omega) r.group (by omega) r.out_frames lb S hr hS (.inl hsu)
        refine ⟨g', lb', ?_, by omega, b, d, records_congr f ?_⟩
        · rw [if_pos rfl, hsu]; exact e'
        · intro i' j hi' hj
          exact ⟨fun _ => .inl (hS hsu i' j hi' hj), fun _ => .inl (hS hsu i' j hi' hj)⟩
      · obtain ⟨lb1, e1, r1, c1, rec1⟩ := evaluate_ok lb c S hr i (by omega) r.out_frames r.read h4
        obtain ⟨g', lb', e', a, b, d, f⟩ := ih (i + 1) (by omega) r.group (by omega) r.out_frames lb1 _ rec1
          (by rw [r1, hfa]; intro h; cases h) (.inr (by rw [r1, hfa]))
        refine ⟨g', lb', ?_, by omega, by rw [b, r1], by rw [d, c1], records_congr f ?_⟩
        · rw [if_pos rfl, hfa, if_pos (by rfl), e1, Outcome.ok_bind]; exact e'
        · intro i' j hi' hj
          constructor
          · rintro ((h | ⟨h1, h2⟩) | ⟨h1, h2⟩)
            · exact .inl h
            · subst h1; exact .inr ⟨by omega, (hyes hb j).1 h2⟩
            · exact .inr ⟨by omega, h2⟩
          · rintro (h | ⟨h1, h2⟩)
            · exact .inl (.inl h)
            · by_cases hi : i' = i
              · subst hi; exact .inl (.inr ⟨rfl, (hyes hb j).2 h2⟩)
              · exact .inr ⟨by omega, h2⟩

theorem isComplete_iff (lb : LoopBackTest) (g : Group) (S : Nat → Nat → Prop) (h0 : 0 < g.getInterfaceCount)
    (hr : Records lb.found g.getInterfaceCount S) :
    lb.isComplete g = true ↔ ∀ i j, i < g.getInterfaceCount → j < 2 → S i j := by
  have hw : ∀ p q, (wordOf p q &&& 3#32 == 3#32) = (p && q) := by decide
  simp only [LoopBackTest.isComplete, hr.1, BEq.rfl, Bool.true_and, Bool.and_eq_true, decide_eq_true_eq, h0, true_and,
    List.all_eq_true]
  constructor
  · intro h i j hi hj
    obtain ⟨p, q, a, b, c⟩ := hr.2 i hi
    have hm := h _ (List.mem_of_getElem? a)
    rw [hw, Bool.and_eq_true] at hm
    rcases (by omega : j = 0 ∨ j = 1) with rfl | rfl
    · exact b.1 hm.1
    · exact c.1 hm.2
  · intro h w hm
    obtain ⟨i, hi, he⟩ := List.getElem_of_mem hm
    have hi' : i < g.getInterfaceCount := by rw [← hr.1]; exact hi
    obtain ⟨p, q, a, b, c⟩ := hr.2 i hi'
    rw [List.getElem?_eq_getElem hi, he] at a
    injection a with a
    rw [a, hw, Bool.and_eq_true]
    exact ⟨b.2 (h i 0 hi' (by omega)), c.2 (h i 1 hi' (by omega))⟩

theorem cameBack_succ (wd : World) (i j k : Nat) :
    CameBack wd i j (k + 1) ↔ CameBack wd i j k ∨ Back (wd.recv k i) j := by
  constructor
  · rintro ⟨k', h, hb⟩
    by_cases he : k' = k
    · subst he; exact .inr hb
    · exact .inl ⟨k', by omega, hb⟩
  · rintro (⟨k', h, hb⟩ | hb)
    · exact ⟨k', by omega, hb⟩
    · exact ⟨k, by omega, hb⟩

theorem cameBack_mono {wd : World} {i j k k' : Nat} (h : k ≤ k') (hc : CameBack wd i j k) : CameBack wd i j k' := by
  obtain ⟨x, h1, h2⟩ := hc
  exact ⟨x, by omega, h2⟩

theorem runTest_ok (wd : World) (hv : ∀ k i, ValidRecv (wd.recv k i)) (n : Nat) (hl : wd.late n = true)
    (he : ∀ k, k < n → wd.late k = false) (d k : Nat) (hd : k + d = n) (g : Group) (h0 : 0 < g.getInterfaceCount)
    (lb : LoopBackTest) (hr : Records lb.found g.getInterfaceCount (fun i j => CameBack wd i j k))
    (hS : lb.result = .Success ↔ ∀ i j, i < g.getInterfaceCount → j < 2 → CameBack wd i j k)
    (hres : lb.result = .Success ∨ lb.result = .Failure) :
    ∃ r g', runTest wd (d + 1) k g lb = some (.ok (r, g')) ∧ g'.interfaces.length = g.interfaces.length ∧
      (r = .Success ↔ ∀ i j, i < g.getInterfaceCount → j < 2 → CameBack wd i j n) ∧ (r = .Success ∨ r = .Failure) := by
  induction d generalizing k g lb with
  | zero =>
    have : k = n := by omega
    subst this
    exact ⟨lb.result, g, by simp only [runTest, hl, if_true], rfl, hS, hres⟩
  | succ d ih =>
    obtain ⟨r, req, hsel⟩ := C44_returns g 100000 true (wd.poll k) (by decide) (by decide)
    obtain ⟨g', lb', e, a, b, c, f⟩ := readAll_ok (wd.recv k) (hv k) g.getInterfaceCount g.getInterfaceCount 0 (by omega) g
      (by simp only [Group.getInterfaceCount]; omega) (Vector.replicate FramesLen Frame.default) lb _ hr hS.1 hres
    have hcnt : g'.getInterfaceCount = g.getInterfaceCount := by simp only [Group.getInterfaceCount, a]
    have f' : Records lb'.found g'.getInterfaceCount (fun i j => CameBack wd i j (k + 1)) := by
      rw [hcnt]
      refine records_congr f ?_
      intro i j _ _
      rw [cameBack_succ]
      simp
    have hcomp := isComplete_iff lb' g' _ (by omega) f'
    have hsel' : g.select strictAbs (Duration.fromMicrosecond 100000) true (wd.poll k) = .ok (r, req) := hsel
    rw [runTest]
    simp only [he k (by omega), Bool.false_eq_true, if_false, hsel', e]
    cases hic : lb'.isComplete g' with
    | true =>
      have hall := hcomp.1 hic
      cases hcont : lb'.continuous with
      | true =>
        simp only [if_true]
        obtain ⟨r', g'', e2, l2, s2, t2⟩ := ih (k + 1) (by omega) g' (by omega) { lb' with result := .Success } f'
          ⟨fun _ => hall, fun _ => rfl⟩ (.inl rfl)
        exact ⟨r', g'', by rw [hcont] at e2; exact e2, by omega, by rw [← hcnt]; exact s2, t2⟩
      | false =>
        simp only [if_true, Bool.false_eq_true, if_false]
        refine ⟨_, _, rfl, a, ?_, .inl rfl⟩
        simp only [true_iff]
        intro i j hi hj
        exact cameBack_mono (by omega) (hall i j (by omega) hj)
    | false =>
      simp only [Bool.false_eq_true, if_false]
      have hnall : ¬ ∀ i j, i < g'.getInterfaceCount → j < 2 → CameBack wd i j (k + 1) := by
        intro h; rw [hcomp.2 h] at hic; cases hic
      have hnS : lb'.result ≠ .Success := by
        rw [b]
        intro h
        apply hnall
        intro i j hi hj
        exact cameBack_mono (by omega) (hS.1 h i j (by omega) hj)
      obtain ⟨r', g'', e2, l2, s2, t2⟩ := ih (k + 1) (by omega) g' (by omega) lb' f'
        ⟨fun h => absurd h hnS, fun h => absurd h hnall⟩ (by rw [b]; exact hres)
      exact ⟨r', g'', e2, by omega, by rw [← hcnt]; exact s2, t2⟩

end Uavcan.SocketCan
