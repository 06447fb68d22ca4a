import Verif.Lemmas.Can

/-!
# C13–C20: CAN frames
-/

namespace Uavcan.Can
open Uavcan.Spec Time

/-! ## C13 length to DLC -/

/-- C13. For MTU 64 and every length up to 64, the length of the DLC chosen is the smallest CAN FD length
that is large enough; larger lengths saturate to 64. -/
theorem C13_length_to_dlc_least (n : Nat) :
    ∃ dlc, lengthToDlc 64 n = .ok dlc ∧ dlc < 16 ∧
      (n ≤ 64 → IsLeastAtLeast FdLength n (dlcToLength dlc)) ∧ (64 < n → dlcToLength dlc = 64) := by
  refine ⟨_, lengthToDlc_eq (Nat.le_refl _), ?_, ?_, ?_⟩
  · exact (table_least ⟨min n 64, by omega⟩).2.1
  · intro h
    rw [Nat.min_eq_left h]
    have ht := table_least ⟨n, by omega⟩
    refine ⟨dlcToLength_fd _, ht.1, ?_⟩
    intro k hk hnk
    exact ht.2.2 ⟨k, by have := fdLength_le hk; omega⟩ hk hnk
  · intro h
    rw [Nat.min_eq_right (by omega)]; decide

example : lengthToDlc 64 9 = .ok 9 ∧ dlcToLength 9 = 12 ∧ lengthToDlc 64 33 = .ok 14 ∧
    lengthToDlc 64 200 = .ok 15 ∧ IsLeastAtLeast FdLength 33 48 := by
  refine ⟨by decide, by decide, by decide, by decide, by decide, by decide, ?_⟩
  intro k hk h; simp only [FdLength] at hk; omega

/-! ## C14 DLC round trip -/

/-- C14. For every MTU up to 64: a DLC whose length fits the MTU survives the round trip; a value that is
no DLC has length 0; a larger length never gets a smaller DLC. -/
theorem C14_dlc_round_trip (mtu : Nat) (hm : mtu ≤ 64) :
    (∀ dlc, dlc < 16 → dlcToLength dlc ≤ mtu → lengthToDlc mtu (dlcToLength dlc) = .ok dlc) ∧
    (∀ dlc, 16 ≤ dlc → dlcToLength dlc = 0) ∧
    (∀ n m, n ≤ m → ∃ d e, lengthToDlc mtu n = .ok d ∧ lengthToDlc mtu m = .ok e ∧ d ≤ e) ∧
    (∀ d e, d < e → e < 16 → dlcToLength d < dlcToLength e) := by
  refine ⟨?_, fun dlc h => dlcToLength_ge h, ?_, ?_⟩
  · intro dlc h hl
    rw [lengthToDlc_eq hm, Nat.min_eq_left hl]
    have : ∀ d : Fin 16, lengthToDlcTable.getD (dlcToLength d.val) 0 = d.val := by decide
    rw [this ⟨dlc, h⟩]
  · intro n m hnm
    refine ⟨_, _, lengthToDlc_eq hm, lengthToDlc_eq hm, ?_⟩
    have : ∀ a : Fin 65, ∀ b : Fin 65, a.val ≤ b.val →
        lengthToDlcTable.getD a.val 0 ≤ lengthToDlcTable.getD b.val 0 := by decide +kernel
    exact this ⟨min n mtu, by omega⟩ ⟨min m mtu, by omega⟩ (by simp only; omega)
  · intro d e hde he
    have : ∀ a : Fin 16, ∀ b : Fin 16, a.val < b.val → dlcToLength a.val < dlcToLength b.val := by decide
    exact this ⟨d, by omega⟩ ⟨e, he⟩ hde

example : (8 : Nat) ≤ 64 ∧ dlcToLength 8 ≤ 8 ∧ lengthToDlc 8 8 = .ok 8 ∧ dlcToLength 255 = 0 := by decide

/-! ## C15 length within the MTU -/

/-- The full statement of C15, for every MTU the template accepts. -/
def C15_Statement : Prop :=
  ∀ mtu, 1 ≤ mtu → mtu ≤ 64 → ∀ (f : Frame mtu) (n : Nat), ∃ g, f.setDataLength n = .ok g ∧
    g.getDataLength ≤ mtu ∧ (n ≤ mtu → n ≤ g.getDataLength)

/-- C15 (partial). `setDataLength` keeps `getDataLength` within the MTU for all lengths **iff** the MTU is
itself a CAN FD length; the lower bound holds for every MTU; no other member changes.
Missing: the upper bound for the other MTUs. -/
theorem C15_length_within_mtu_partial (mtu : Nat) (hm : mtu ≤ 64) :
    ((∀ (f : Frame mtu) (n : Nat), ∃ g, f.setDataLength n = .ok g ∧ g.getDataLength ≤ mtu) ↔ FdLength mtu) ∧
    (∀ (f : Frame mtu) (n : Nat), ∃ g, f.setDataLength n = .ok g ∧ (n ≤ mtu → n ≤ g.getDataLength) ∧
      g.id = f.id ∧ g.data = f.data ∧ g.timestamp = f.timestamp) := by
  constructor
  · constructor
    · intro h
      obtain ⟨g, hg, hl⟩ := h Frame.default mtu
      simp only [Frame.setDataLength, lengthToDlc_eq hm, Outcome.ok_bind, Outcome.pure_eq, Outcome.ok.injEq] at hg
      subst hg
      simp only [Frame.getDataLength, Nat.min_self] at hl
      have := (table_least ⟨mtu, by omega⟩).1
      have hfd := dlcToLength_fd (lengthToDlcTable.getD mtu 0)
      rw [show dlcToLength (lengthToDlcTable.getD mtu 0) = mtu by simp only at this; omega] at hfd
      exact hfd
    · intro hfd f n
      refine ⟨{ f with dlc := lengthToDlcTable.getD (min n mtu) 0 }, ?_, ?_⟩
      · simp only [Frame.setDataLength, lengthToDlc_eq hm, Outcome.ok_bind, Outcome.pure_eq]
      · have := (table_least ⟨min n mtu, by omega⟩).2.2 ⟨mtu, by omega⟩ hfd (by simp only; omega)
        exact this
  · intro f n
    refine ⟨{ f with dlc := lengthToDlcTable.getD (min n mtu) 0 }, ?_, ?_, rfl, rfl, rfl⟩
    · simp only [Frame.setDataLength, lengthToDlc_eq hm, Outcome.ok_bind, Outcome.pure_eq]
    · intro h
      have := (table_least ⟨min n mtu, by omega⟩).1
      simp only [Frame.getDataLength] at *
      omega

/-- The full statement of C15 fails: MTU 9, `setDataLength(9)`, `getDataLength()` is 12. -/
theorem C15_full_statement_fails : ¬ C15_Statement := by
  intro h
  have h1 := (C15_length_within_mtu_partial 9 (by decide)).1.1
  have h2 : FdLength 9 := h1 (fun f n => by
    obtain ⟨g, hg, hl, -⟩ := h 9 (by decide) (by decide) f n
    exact ⟨g, hg, hl⟩)
  revert h2; decide

/-- Consequence: comparing such a frame with itself reads past the end of its data. -/
theorem C15_overlong_frame_comparison_undefined :
    (do let f ← (Frame.default : Frame 9).setDataLength 9; f.eq 0 f) = .ub .outOfBounds := by decide

example : ∃ g, (Frame.default : Frame 12).setDataLength 9 = .ok g ∧ g.getDataLength = 12 ∧ FdLength 12 :=
  ⟨_, rfl, by decide, by decide⟩

/-! ## C16 payload tables -/

/-- C16. For every payload length the bus type's table covers, the table entry plus the tail byte is the
smallest frame length of that bus type with room for the payload and the tail byte. -/
theorem C16_payload_tables :
    (FDPayloadLengthToFrameLength.length = 64 ∧
      ∀ p, p < 64 → ∃ l, FDPayloadLengthToFrameLength[p]? = some l ∧
        IsLeastAtLeast FdLength (p + 1) (l + TailByteSizeBytes)) ∧
    (Type20PayloadLengthToFrameLength.length = 8 ∧
      ∀ p, p < 8 → ∃ l, Type20PayloadLengthToFrameLength[p]? = some l ∧
        IsLeastAtLeast Can20Length (p + 1) (l + TailByteSizeBytes)) := by
  refine ⟨⟨rfl, ?_⟩, ⟨rfl, ?_⟩⟩
  · intro p hp
    have key : ∀ q : Fin 64, FdLength (FDPayloadLengthToFrameLength.getD q.val 0 + 1) ∧
        q.val + 1 ≤ FDPayloadLengthToFrameLength.getD q.val 0 + 1 ∧
        ∀ k : Fin 65, FdLength k.val → q.val + 1 ≤ k.val →
          FDPayloadLengthToFrameLength.getD q.val 0 + 1 ≤ k.val := by decide +kernel
    obtain ⟨h1, h2, h3⟩ := key ⟨p, hp⟩
    have hl : p < FDPayloadLengthToFrameLength.length := hp
    refine ⟨FDPayloadLengthToFrameLength.getD p 0, by simp [hl], h1, h2, ?_⟩
    intro k hk hpk
    exact h3 ⟨k, by have := fdLength_le hk; omega⟩ hk hpk
  · intro p hp
    have key : ∀ q : Fin 8, Type20PayloadLengthToFrameLength.getD q.val 0 = q.val := by decide
    have hl : p < Type20PayloadLengthToFrameLength.length := hp
    refine ⟨p, ?_, ?_, ?_, ?_⟩
    · have := key ⟨p, hp⟩
      simp only [List.getD_eq_getElem?_getD, List.getElem?_eq_getElem hl, Option.getD_some] at this
      rw [List.getElem?_eq_getElem hl, this]
    · simp only [Can20Length, TailByteSizeBytes]; omega
    · simp only [TailByteSizeBytes]; omega
    · intro k _ h; simp only [TailByteSizeBytes]; omega

/-- C16. The constants for the greatest frame sizes are the greatest lengths of frames on the two kinds of
bus, and the tables have an entry for every payload that fits beside a tail byte. -/
theorem C16_maximum :
    (FdLength FDMaxFrameSizeBytes ∧ ∀ l, FdLength l → l ≤ FDMaxFrameSizeBytes) ∧
    (Can20Length Type20MaxFrameSizeBytes ∧ ∀ l, Can20Length l → l ≤ Type20MaxFrameSizeBytes) ∧
    FDPayloadLengthToFrameLength.length = FDMaxFrameSizeBytes - TailByteSizeBytes + 1 ∧
    Type20PayloadLengthToFrameLength.length = Type20MaxFrameSizeBytes - TailByteSizeBytes + 1 := by
  refine ⟨⟨by decide, fun l hl => fdLength_le hl⟩, ⟨?_, ?_⟩, rfl, rfl⟩
  · simp only [Can20Length, Type20MaxFrameSizeBytes]; omega
  · intro l hl; simp only [Can20Length, Type20MaxFrameSizeBytes] at *; omega

example : FDPayloadLengthToFrameLength[8]? = some 11 ∧ FDPayloadLengthToFrameLength[63]? = some 63 := by decide

/-! ## C17 construction from data -/

/-- The full statement of C17: construction is defined whenever the source holds the DLC's bytes. -/
def C17_Statement : Prop :=
  ∀ mtu, 1 ≤ mtu → mtu ≤ 64 → ∀ id (src : List Byte) dlc ts, dlcToLength dlc ≤ src.length →
    ((Frame.ofData id (some src) dlc ts : Outcome (Frame mtu))).Defined

/-- C17 (partial). With a buffer, construction is defined **iff** the DLC's length fits the frame and the
buffer (or is zero); then the frame has exactly the given id, DLC, timestamp and bytes and is zero behind
them. Missing: the constructor does not check the MTU, so longer DLCs write past the frame. -/
theorem C17_construct_partial (mtu : Nat) (id : BitVec 32) (src : List Byte) (dlc : Nat) (ts : TimePoint) :
    ((Frame.ofData id (some src) dlc ts : Outcome (Frame mtu)).Defined ↔
      (dlcToLength dlc ≤ mtu ∧ dlcToLength dlc ≤ src.length)) ∧
    (∀ f : Frame mtu, Frame.ofData id (some src) dlc ts = .ok f →
      f.id = id ∧ f.getDLC = dlc ∧ f.timestamp = ts ∧
      ∀ j (hj : j < mtu), f.data[j] = if j < f.getDataLength then src.getD j 0 else 0) := by
  by_cases h : dlcToLength dlc ≤ mtu ∧ dlcToLength dlc ≤ src.length
  · obtain ⟨v, hv, hj⟩ := copyBytes_ok src (dlcToLength dlc) 0 (Vector.replicate mtu 0) (by omega) (by omega)
    constructor
    · simp only [h, and_self, iff_true]
      exact ⟨{ id := id, data := v, dlc := dlc, timestamp := ts },
        by simp only [Frame.ofData, hv, Outcome.ok_bind, Outcome.pure_eq]⟩
    · intro f hf
      simp only [Frame.ofData, hv, Outcome.ok_bind, Outcome.pure_eq, Outcome.ok.injEq] at hf
      subst hf
      refine ⟨rfl, rfl, rfl, ?_⟩
      intro j hjm
      rw [hj j hjm]
      simp [Frame.getDataLength]
  · have hpos : 0 < dlcToLength dlc := by omega
    have hub : copyBytes src (dlcToLength dlc) 0 (Vector.replicate mtu 0 : Vector Byte mtu) = .ub .outOfBounds :=
      copyBytes_ub _ _ _ _ hpos (by omega)
    constructor
    · simp only [h, iff_false]
      rintro ⟨f, hf⟩
      simp only [Frame.ofData, hub, Outcome.ub_bind] at hf
      cases hf
    · intro f hf
      simp only [Frame.ofData, hub, Outcome.ub_bind] at hf
      cases hf

/-- C17, null buffer: always defined, DLC 0, all data zero. -/
theorem C17_construct_null (mtu : Nat) (id : BitVec 32) (dlc : Nat) (ts : TimePoint) :
    ∃ f : Frame mtu, Frame.ofData id none dlc ts = .ok f ∧ f.id = id ∧ f.getDLC = 0 ∧ f.timestamp = ts ∧
      f.getDataLength = 0 ∧ ∀ j (hj : j < mtu), f.data[j] = 0 :=
  ⟨_, rfl, rfl, rfl, rfl, rfl, fun j hj => by simp⟩

/-- C17, the constructor without a timestamp: the same frame, at time zero. -/
theorem C17_construct_no_timestamp (mtu : Nat) (id : BitVec 32) (src : Option (List Byte)) (dlc : Nat) :
    ((Frame.ofData' id src dlc : Outcome (Frame mtu)).Defined ↔
      ∀ b, src = some b → dlcToLength dlc ≤ mtu ∧ dlcToLength dlc ≤ b.length) ∧
    (∀ f : Frame mtu, Frame.ofData' id src dlc = .ok f →
      f.timestamp.toMicrosecond = 0 ∧ f.id = id ∧ f.getDLC = (if src.isSome then dlc else 0) ∧
      ∀ j (hj : j < mtu), f.data[j] = if j < f.getDataLength then (src.getD []).getD j 0 else 0) := by
  cases src with
  | none =>
    refine ⟨⟨fun _ b hb => (by cases hb), fun _ => ⟨_, rfl⟩⟩, ?_⟩
    intro f hf
    cases hf
    refine ⟨rfl, rfl, rfl, fun j hj => ?_⟩
    simp
  | some b =>
    obtain ⟨h1, h2⟩ := C17_construct_partial mtu id b dlc (TimePoint.fromMicrosecond 0)
    refine ⟨⟨fun h b' hb => ?_, fun h => h1.2 (h b rfl)⟩, ?_⟩
    · cases hb; exact h1.1 h
    · intro f hf
      obtain ⟨a, b', c, d⟩ := h2 f hf
      exact ⟨by rw [c]; rfl, a, b', d⟩

example : ∃ f : Frame 8, Frame.ofData' 5 (some [1, 2, 3, 4]) 3 = .ok f ∧ f.timestamp = ⟨0⟩ ∧ f.dlc = 3 :=
  ⟨_, rfl, by decide, by decide⟩

/-- The full statement of C17 fails: a 64-byte DLC into a CAN 2.0 frame. -/
theorem C17_full_statement_fails : ¬ C17_Statement := by
  intro h
  have := h 8 (by decide) (by decide) 0 (List.replicate 64 0) 15 ⟨0⟩ (by decide)
  rw [(C17_construct_partial 8 0 _ 15 ⟨0⟩).1] at this
  revert this; decide

example : ∃ f : Frame 8, Frame.ofData 5 (some [1, 2, 3, 4]) 3 ⟨9⟩ = .ok f ∧
    f.data.toList = [1, 2, 3, 0, 0, 0, 0, 0] ∧ f.dlc = 3 := ⟨_, rfl, by decide, by decide⟩

/-! ## C18 equality -/

/-- What two frames must agree on to be equal: the 29 id bits, the id bits 29–31 selected by the flag
mask, the DLC, and the bytes the DLC covers. Written without the code's masks. -/
def SameFrame {mtu : Nat} (flagMask : BitVec 8) (l r : Frame mtu) : Prop :=
  (∀ i, i < 29 → l.id.getLsbD i = r.id.getLsbD i) ∧
  (∀ i, i < 3 → flagMask.getLsbD i = true → l.id.getLsbD (29 + i) = r.id.getLsbD (29 + i)) ∧
  l.dlc = r.dlc ∧
  ∀ j (hj : j < mtu), j < l.getDataLength → l.data[j] = r.data[j]

theorem mask_eq_iff {mtu : Nat} (fm : BitVec 8) (l r : Frame mtu) :
    (l.id &&& MaskIdWithFlags fm = r.id &&& MaskIdWithFlags fm) ↔
    ((∀ i, i < 29 → l.id.getLsbD i = r.id.getLsbD i) ∧
     (∀ i, i < 3 → fm.getLsbD i = true → l.id.getLsbD (29 + i) = r.id.getLsbD (29 + i))) := by
  rw [and_mask_eq_iff]
  constructor
  · intro h
    refine ⟨fun i hi => h i (by omega) ?_, fun i hi hf => h (29 + i) (by omega) ?_⟩
    · rw [maskFlags_getLsbD fm i (by omega)]; simp [hi]
    · rw [maskFlags_getLsbD fm (29 + i) (by omega), Nat.add_sub_cancel_left]; simp [hf]
  · rintro ⟨h1, h2⟩ i hi hm
    rw [maskFlags_getLsbD fm i hi] at hm
    by_cases hlt : i < 29
    · exact h1 i hlt
    · simp only [hlt, decide_false, Bool.false_or] at hm
      have := h2 (i - 29) (by omega) hm
      rwa [show 29 + (i - 29) = i by omega] at this

/-- C18. Comparison of two frames whose length is within the MTU is defined and decides `SameFrame`;
`!=` is its negation. The timestamp and the bytes behind the length play no role. -/
theorem C18_equality {mtu : Nat} (fm : BitVec 8) (l r : Frame mtu) (hl : l.getDataLength ≤ mtu) :
    ∃ b, l.eq fm r = .ok b ∧ l.ne fm r = .ok (!b) ∧ (b = true ↔ SameFrame fm l r) := by
  have key : ∃ b, l.eq fm r = .ok b ∧ (b = true ↔ SameFrame fm l r) := by
    unfold Frame.eq SameFrame
    by_cases hm : l.id &&& MaskIdWithFlags fm = r.id &&& MaskIdWithFlags fm
    · rw [if_pos hm]
      have hm' := (mask_eq_iff fm l r).1 hm
      by_cases hd : l.dlc = r.dlc
      · rw [if_pos hd]
        obtain ⟨b, hb, hbb⟩ := equalBytes_ok l.data r.data (dlcToLength l.dlc) 0
          (by simpa [Frame.getDataLength] using hl)
        refine ⟨b, by rw [equal, if_pos (by simpa [Frame.getDataLength] using hl), hb], ?_⟩
        rw [hbb]
        simp only [Frame.getDataLength]
        constructor
        · intro h; exact ⟨hm'.1, hm'.2, hd, fun j hj h2 => h j hj (by omega) (by omega)⟩
        · intro h j hj _ h2; exact h.2.2.2 j hj (by omega)
      · rw [if_neg hd]
        exact ⟨false, rfl, by simp [hd]⟩
    · rw [if_neg hm]
      refine ⟨false, rfl, ?_⟩
      simp only [Bool.false_eq_true, false_iff]
      intro h
      exact hm ((mask_eq_iff fm l r).2 ⟨h.1, h.2.1⟩)
  obtain ⟨b, hb, hh⟩ := key
  exact ⟨b, hb, by simp [Frame.ne, hb], hh⟩

/-- C18: the comparison is reflexive, symmetric and transitive on frames whose length is within the MTU. -/
theorem C18_equivalence {mtu : Nat} (fm : BitVec 8) (a b c : Frame mtu) (ha : a.getDataLength ≤ mtu)
    (hb : b.getDataLength ≤ mtu) :
    a.eq fm a = .ok true ∧ (a.eq fm b = .ok true → b.eq fm a = .ok true) ∧
    (a.eq fm b = .ok true → b.eq fm c = .ok true → a.eq fm c = .ok true) := by
  have iff1 : ∀ x y : Frame mtu, x.getDataLength ≤ mtu → (x.eq fm y = .ok true ↔ SameFrame fm x y) := by
    intro x y hx
    obtain ⟨r, h1, -, h2⟩ := C18_equality fm x y hx
    rw [h1, Outcome.ok.injEq, h2]
  refine ⟨?_, ?_, ?_⟩
  · rw [iff1 a a ha]; exact ⟨fun _ _ => rfl, fun _ _ _ => rfl, rfl, fun _ _ _ => rfl⟩
  · rw [iff1 a b ha, iff1 b a hb]
    rintro ⟨h1, h2, h3, h4⟩
    refine ⟨fun i hi => (h1 i hi).symm, fun i hi hf => (h2 i hi hf).symm, h3.symm, fun j hj hl => ?_⟩
    exact (h4 j hj (by simp only [Frame.getDataLength, h3] at *; exact hl)).symm
  · rw [iff1 a b ha, iff1 b c hb, iff1 a c ha]
    rintro ⟨h1, h2, h3, h4⟩ ⟨g1, g2, g3, g4⟩
    refine ⟨fun i hi => (h1 i hi).trans (g1 i hi), fun i hi hf => (h2 i hi hf).trans (g2 i hi hf),
      h3.trans g3, fun j hj hl => (h4 j hj hl).trans (g4 j hj ?_)⟩
    simp only [Frame.getDataLength, h3] at *; exact hl

/-- C18: exactly when comparison is defined. It is undefined for two frames that agree in the compared
identifier bits and the length code when that length exceeds the MTU, whatever their bytes are. -/
theorem C18_defined_iff {mtu : Nat} (fm : BitVec 8) (l r : Frame mtu) :
    (∃ b, l.eq fm r = .ok b) ↔
    (l.getDataLength ≤ mtu ∨ l.dlc ≠ r.dlc ∨ (∃ i, i < 29 ∧ l.id.getLsbD i ≠ r.id.getLsbD i) ∨
      ∃ i, i < 3 ∧ fm.getLsbD i = true ∧ l.id.getLsbD (29 + i) ≠ r.id.getLsbD (29 + i)) := by
  constructor
  · rintro ⟨b, h⟩
    by_cases hl : l.getDataLength ≤ mtu
    · exact .inl hl
    · by_cases hd : l.dlc = r.dlc
      · refine .inr (.inr ?_)
        by_cases hm : l.id &&& MaskIdWithFlags fm = r.id &&& MaskIdWithFlags fm
        · rw [Frame.eq, if_pos hm, if_pos hd, equal,
            if_neg (show ¬ dlcToLength l.dlc ≤ mtu from hl)] at h
          cases h
        · rw [mask_eq_iff] at hm
          apply Classical.byContradiction
          intro hc
          apply hm
          refine ⟨fun i hi => ?_, fun i hi hf => ?_⟩
          · exact Classical.byContradiction fun hn => hc (.inl ⟨i, hi, hn⟩)
          · exact Classical.byContradiction fun hn => hc (.inr ⟨i, hi, hf, hn⟩)
      · exact .inr (.inl hd)
  · rintro (hl | hd | hi)
    · obtain ⟨b, hb, -⟩ := C18_equality fm l r hl
      exact ⟨b, hb⟩
    · unfold Frame.eq
      by_cases hm : l.id &&& MaskIdWithFlags fm = r.id &&& MaskIdWithFlags fm
      · exact ⟨false, by rw [if_pos hm, if_neg hd]⟩
      · exact ⟨false, by rw [if_neg hm]⟩
    · refine ⟨false, ?_⟩
      rw [Frame.eq, if_neg]
      intro hm
      rw [mask_eq_iff] at hm
      rcases hi with ⟨i, h1, h2⟩ | ⟨i, h1, h2, h3⟩
      · exact h2 (hm.1 i h1)
      · exact h3 (hm.2 i h1 h2)

/-- C18: the side condition is needed. Comparing frames that are alike but whose length exceeds the MTU
leaves the array. -/
theorem C18_overlong_undefined {mtu : Nat} (fm : BitVec 8) (f : Frame mtu) (h : mtu < f.getDataLength) :
    f.eq fm f = .ub .outOfBounds := by
  unfold Frame.eq
  rw [if_pos rfl, if_pos rfl, equal, if_neg (by simp only [Frame.getDataLength] at h; omega)]

example : (({ id := 1#32, data := #v[1, 2, 3, 4], dlc := 8, timestamp := ⟨4⟩ } : Frame 4).eq 0
    { id := 1#32, data := #v[9, 2, 3, 4], dlc := 8, timestamp := ⟨4⟩ }) = .ub .outOfBounds := by decide

example : (({ id := 0xE0000001#32, data := #v[1, 2, 3, 4], dlc := 2, timestamp := ⟨4⟩ } : Frame 4).eq 0
      { id := 0x00000001#32, data := #v[1, 2, 9, 9], dlc := 2, timestamp := ⟨5⟩ }) = .ok true ∧
    (({ id := 0xE0000001#32, data := #v[1, 2, 3, 4], dlc := 2, timestamp := ⟨4⟩ } : Frame 4).eq 4
      { id := 0x00000001#32, data := #v[1, 2, 9, 9], dlc := 2, timestamp := ⟨5⟩ }) = .ok false := by decide

/-! ## C19 priority -/

/-- C19. Priority is decided by the 29-bit identifier alone, numerically smaller being higher. -/
theorem C19_priority_by_id {mtu : Nat} (a b : Frame mtu) :
    (a.gt b = true ↔ canId29 a.id < canId29 b.id) ∧ (a.lt b = true ↔ canId29 b.id < canId29 a.id) ∧
    a.priorityHigherThan b = a.gt b ∧ a.priorityLowerThan b = a.lt b := by
  refine ⟨?_, ?_, rfl, rfl⟩
  · simp only [Frame.gt, Frame.priorityHigherThan, decide_eq_true_eq, BitVec.lt_def, and_maskExt_toNat]
  · simp only [Frame.lt, Frame.priorityLowerThan, Frame.priorityHigherThan, decide_eq_true_eq, BitVec.lt_def,
      and_maskExt_toNat]

/-- C19. `>` is a strict weak order with converse `<`; incomparability is transitive; equal frames are
never ordered. -/
theorem C19_strict_weak_order {mtu : Nat} (fm : BitVec 8) (a b c : Frame mtu) :
    a.gt a = false ∧ (a.gt b = true → b.gt a = false) ∧ (a.gt b = true → b.gt c = true → a.gt c = true) ∧
    (a.gt b = b.lt a) ∧
    (a.gt b = false → b.gt a = false → b.gt c = false → c.gt b = false → a.gt c = false ∧ c.gt a = false) ∧
    (a.eq fm b = .ok true → a.gt b = false ∧ a.lt b = false) := by
  have h1 := fun x y : Frame mtu => (C19_priority_by_id x y).1
  have h1' : ∀ x y : Frame mtu, x.gt y = false ↔ ¬ canId29 x.id < canId29 y.id := by
    intro x y; rw [← h1 x y]; cases x.gt y <;> simp
  have h2 : ∀ x y : Frame mtu, x.lt y = false ↔ ¬ canId29 y.id < canId29 x.id := by
    intro x y; rw [← (C19_priority_by_id x y).2.1]; cases x.lt y <;> simp
  refine ⟨?_, ?_, ?_, ?_, ?_, ?_⟩
  · rw [h1']; omega
  · rw [h1, h1']; omega
  · rw [h1, h1, h1]; omega
  · rw [Bool.eq_iff_iff, h1, (C19_priority_by_id b a).2.1]
  · simp only [h1']; omega
  · intro h
    have hm : a.id &&& MaskIdWithFlags fm = b.id &&& MaskIdWithFlags fm := by
      unfold Frame.eq at h
      by_cases hc : a.id &&& MaskIdWithFlags fm = b.id &&& MaskIdWithFlags fm
      · exact hc
      · rw [if_neg hc] at h; cases h
    have hbits := ((mask_eq_iff fm a b).1 hm).1
    have hid : a.id &&& MaskExtID = b.id &&& MaskExtID := by
      rw [and_mask_eq_iff]
      intro i hi hmi
      rw [maskExt_getLsbD] at hmi
      exact hbits i (by simpa using hmi)
    have : canId29 a.id = canId29 b.id := by
      rw [← and_maskExt_toNat, ← and_maskExt_toNat, hid]
    rw [h1', h2]; omega

example : ({ id := 0xFFFFFFFE#32, data := #v[0], dlc := 0, timestamp := ⟨0⟩ } : Frame 1).gt
      { id := 0x1FFFFFFF#32, data := #v[0], dlc := 0, timestamp := ⟨0⟩ } = true := by decide

/-! ## C20 histories -/

/-- The caller's side of the contract, per operation: data arguments must be long enough for the DLC and
the DLC must fit the frame; array writes are in bounds. -/
def FrameOp.Valid (mtu : Nat) : FrameOp → Prop
  | .mkOfData _ _ (some src) dlc _ => dlcToLength dlc ≤ mtu ∧ dlcToLength dlc ≤ src.length
  | .writeData _ i _ => i < mtu
  | _ => True

theorem copyBytes_all {m : Nat} (src dst : Vector Byte m) : copyBytes src.toList m 0 dst = .ok src := by
  obtain ⟨v, hv, hj⟩ := copyBytes_ok src.toList m 0 dst (by simp) (by omega)
  rw [hv]
  congr 1
  apply Vector.ext
  intro j hjm
  rw [hj j hjm, if_pos (by omega)]
  simp [hjm]

theorem C20_copy_exact {mtu : Nat} (f g : Frame mtu) : f.copyOf = .ok f ∧ g.assign f = .ok f := by
  constructor
  · simp [Frame.copyOf, copyBytes_all]
  · simp [Frame.assign, copyBytes_all]

/-- C20. For an MTU that is a CAN FD length, every program of valid operations on any number of frames is
defined, keeps every frame's length within its MTU, and therefore every later comparison is defined. -/
theorem C20_history (mtu : Nat) (hm : FdLength mtu) (fm : BitVec 8) (ops : List FrameOp)
    (hv : ∀ op ∈ ops, op.Valid mtu) (st : FrameStore mtu) (h0 : ∀ i, (st i).getDataLength ≤ mtu) :
    ∃ st', FrameOp.run st ops = .ok st' ∧ (∀ i, (st' i).getDataLength ≤ mtu) ∧
      ∀ i j, ((st' i).eq fm (st' j)).Defined := by
  have key : ∃ st', FrameOp.run st ops = .ok st' ∧ (∀ i, (st' i).getDataLength ≤ mtu) := by
    induction ops generalizing st with
    | nil => exact ⟨st, rfl, h0⟩
    | cons op ops ih =>
      have hstep : ∃ st1, op.exec st = .ok st1 ∧ ∀ i, (st1 i).getDataLength ≤ mtu := by
        have hset : ∀ (d : Nat) (f : Frame mtu), f.getDataLength ≤ mtu →
            ∀ i, ((st.set d f) i).getDataLength ≤ mtu := by
          intro d f hf i; simp only [FrameStore.set]; split
          · exact hf
          · exact h0 i
        have hval := hv op (by simp)
        cases op with
        | mkDefault d => exact ⟨_, rfl, hset d _ (by simp [Frame.getDataLength, Frame.default, dlcToLength, dlcToLengthTable])⟩
        | mkOfData d id data dlc ts =>
          cases data with
          | none =>
            refine ⟨_, by simp [FrameOp.exec, Frame.ofData]; rfl, hset d _ ?_⟩
            simp [Frame.getDataLength, dlcToLength, dlcToLengthTable]
          | some src =>
            obtain ⟨f, hf⟩ := (C17_construct_partial mtu id src dlc ts).1.2 hval
            refine ⟨_, by simp [FrameOp.exec, hf]; rfl, hset d _ ?_⟩
            have := ((C17_construct_partial mtu id src dlc ts).2 f hf).2.1
            simp only [Frame.getDataLength, Frame.getDLC] at *
            rw [this]; exact hval.1
        | mkCopy d s =>
          exact ⟨_, by simp [FrameOp.exec, (C20_copy_exact (st s) (st s)).1], hset d _ (h0 s)⟩
        | assign d s =>
          exact ⟨_, by simp [FrameOp.exec, (C20_copy_exact (st s) (st d)).2], hset d _ (h0 s)⟩
        | setDataLength d n =>
          obtain ⟨g, hg, hl⟩ := (C15_length_within_mtu_partial mtu (fdLength_le hm)).1.2 hm (st d) n
          exact ⟨_, by simp [FrameOp.exec, hg], hset d _ hl⟩
        | writeId d v => exact ⟨_, rfl, hset d _ (h0 d)⟩
        | writeData d i v =>
          have hi : i < mtu := hval
          exact ⟨_, by simp only [FrameOp.exec, hi, dif_pos], hset d { st d with data := (st d).data.set i v } (h0 d)⟩
        | writeTimestamp d t => exact ⟨_, rfl, hset d _ (h0 d)⟩
      obtain ⟨st1, h1, h2⟩ := hstep
      obtain ⟨st2, h3, h4⟩ := ih (fun o ho => hv o (by simp [ho])) st1 h2
      exact ⟨st2, by simp [FrameOp.run, h1, h3], h4⟩
  obtain ⟨st', h1, h2⟩ := key
  refine ⟨st', h1, h2, ?_⟩
  intro i j
  obtain ⟨b, hb, -⟩ := C18_equality fm (st' i) (st' j) (h2 i)
  exact ⟨b, hb⟩

/-- C20: after copying or assigning, the two frames compare equal and every other frame is unchanged. -/
theorem C20_copy_equal (mtu : Nat) (fm : BitVec 8) (st : FrameStore mtu) (d s : Nat)
    (hs : (st s).getDataLength ≤ mtu) (op : FrameOp) (hop : op = .mkCopy d s ∨ op = .assign d s) :
    ∃ st', op.exec st = .ok st' ∧ st' d = st s ∧ (st' d).eq fm (st' s) = .ok true ∧
      ∀ i, i ≠ d → st' i = st i := by
  have hex : op.exec st = .ok (st.set d (st s)) := by
    rcases hop with rfl | rfl
    · simp [FrameOp.exec, (C20_copy_exact (st s) (st s)).1]
    · simp [FrameOp.exec, (C20_copy_exact (st s) (st d)).2]
  refine ⟨_, hex, by simp [FrameStore.set], ?_, fun i hi => by simp [FrameStore.set, hi]⟩
  have h1 : (st.set d (st s)) d = st s := by simp [FrameStore.set]
  have h2 : (st.set d (st s)) s = st s := by simp [FrameStore.set]
  rw [h1, h2]
  exact (C18_equivalence fm (st s) (st s) (st s) hs hs).1

example : ∃ st', FrameOp.run (mtu := 8) (fun _ => Frame.default)
    [.mkOfData 1 7 (some [1, 2, 3]) 3 ⟨0⟩, .mkCopy 2 1, .writeData 2 7 9, .setDataLength 1 8] = .ok st' ∧
    (st' 1).getDataLength = 8 ∧ (st' 2).eq 0 (st' 1) = .ok false ∧ (st' 2).data[7] = 9 :=
  ⟨_, rfl, by decide, by decide, by decide⟩
example : FdLength 8 ∧ (FrameOp.mkOfData 1 7 (some [1, 2, 3]) 3 ⟨0⟩).Valid 8 := by
  refine ⟨by decide, ?_, ?_⟩ <;> decide

end Uavcan.Can
