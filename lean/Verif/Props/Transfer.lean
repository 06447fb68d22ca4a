import Verif.Spec.Transfer
import Verif.Props.Sender
import Verif.Props.Links
import Verif.Props.Can

/-!
# C139: transfers of several frames
-/

namespace Uavcan.SocketCan
open Spec Can

theorem tailByte_bits (first last toggle : Bool) (number : Nat) :
    (tailByte first last toggle number).getLsbD 7 = first ∧ (tailByte first last toggle number).getLsbD 6 = last ∧ (tailByte first last toggle number).getLsbD 5 = toggle ∧
    (tailByte first last toggle number).toNat % 32 = number % 32 := by
  have key : ∀ n, n < 32 → ∀ a b c : Bool, let t : Byte := BitVec.ofNat 8 ((if a then 128 else 0) + (if b then 64 else 0) + (if c then 32 else 0) + n)
      t.getLsbD 7 = a ∧ t.getLsbD 6 = b ∧ t.getLsbD 5 = c ∧ t.toNat % 32 = n := by decide +kernel
  exact key (number % 32) (Nat.mod_lt _ (by decide)) first last toggle

/-- A frame with a tail byte. -/
theorem assemble_tail (st : Option Assembly) (body : List Byte) (first last toggle : Bool) (number : Nat) :
    assemble st (body ++ [tailByte first last toggle number]) =
      match (if first then some ⟨[], true, number % 32⟩ else st : Option Assembly) with
      | none => (none, none)
      | some a =>
        if toggle = a.toggle ∧ number % 32 = a.number then if last then (none, some (a.payload ++ body)) else (some ⟨a.payload ++ body, !a.toggle, a.number⟩, none)
        else (none, none) := by
  obtain ⟨h7, h6, h5, hn⟩ := tailByte_bits first last toggle number
  unfold assemble
  rw [List.getLast?_append]
  simp only [List.getLast?_singleton, Option.some_or, h7, h6, h5, hn, List.dropLast_concat]
  rfl

/-- The rest of a transfer completes it. -/
theorem collect_rest (number : Nat) (rest : List (List Byte)) : ∀ n payload, payload.length ≤ n → ∀ (first toggle : Bool) (st : Option Assembly) (acc : List Byte),
    (if first then some ⟨[], true, number % 32⟩ else st : Option Assembly) = some ⟨acc, toggle, number % 32⟩ →
    collect st (cutRest number payload first toggle ++ rest) = (acc ++ payload) :: collect none rest := by
  intro n
  induction n with
  | zero =>
    intro payload hl first toggle st acc hs
    rw [cutRest, dif_pos (by omega)]
    show (assemble st _).2.toList ++ collect (assemble st _).1 rest = _
    rw [assemble_tail, hs]
    simp
  | succ n ih =>
    intro payload hl first toggle st acc hs
    rw [cutRest]
    by_cases h : payload.length ≤ pieceLength
    · rw [dif_pos h]
      show (assemble st _).2.toList ++ collect (assemble st _).1 rest = _
      rw [assemble_tail, hs]
      simp
    · rw [dif_neg h]
      show (assemble st _).2.toList ++ collect (assemble st _).1 (cutRest number (payload.drop pieceLength) false (!toggle) ++ rest) = _
      rw [assemble_tail, hs]
      simp only [and_self, if_true, Bool.false_eq_true, if_false, Option.toList_none, List.nil_append]
      rw [ih (payload.drop pieceLength) (by simp only [List.length_drop, pieceLength, Type20MaxFrameSizeBytes, TailByteSizeBytes] at *; omega) false (!toggle) _ (acc ++ payload.take pieceLength) rfl,
        List.append_assoc, List.take_append_drop]

/-- All frames of all transfers give all payloads. -/
theorem collect_all (ts : List Transfer) : collect none (ts.flatMap Transfer.contents) = ts.map Transfer.payload := by
  induction ts with
  | nil => rfl
  | cons t ts ih =>
    rw [List.flatMap_cons, Transfer.contents, collect_rest t.number _ _ t.payload (Nat.le_refl _) true true none [] rfl, ih]
    rfl

/-- What comes later does not change what was got before. -/
theorem collect_prefix : ∀ (as bs : List (List Byte)) (st : Option Assembly), collect st as <+: collect st (as ++ bs) := by
  intro as bs
  induction as with
  | nil => exact fun st => List.nil_prefix
  | cons a as ih =>
    intro st
    show (assemble st a).2.toList ++ collect (assemble st a).1 as <+: (assemble st a).2.toList ++ collect (assemble st a).1 (as ++ bs)
    exact (List.prefix_append_right_inj _).2 (ih _)

theorem cutRest_length (number : Nat) : ∀ n payload, payload.length ≤ n → ∀ (first toggle : Bool), ∀ b ∈ cutRest number payload first toggle, b.length ≤ 8 := by
  intro n
  induction n with
  | zero =>
    intro payload hl first toggle b hb
    rw [cutRest, dif_pos (by omega), List.mem_singleton] at hb
    rw [hb, List.length_append, List.length_singleton]
    omega
  | succ n ih =>
    intro payload hl first toggle b hb
    rw [cutRest] at hb
    by_cases h : payload.length ≤ pieceLength
    · rw [dif_pos h, List.mem_singleton] at hb
      rw [hb, List.length_append, List.length_singleton]
      simp only [pieceLength, Type20MaxFrameSizeBytes, TailByteSizeBytes] at h
      omega
    · rw [dif_neg h] at hb
      rcases List.mem_cons.1 hb with rfl | hb
      · simp only [List.length_append, List.length_singleton, List.length_take, pieceLength, Type20MaxFrameSizeBytes, TailByteSizeBytes]
        omega
      · exact ih _ (by simp only [List.length_drop, pieceLength, Type20MaxFrameSizeBytes, TailByteSizeBytes] at *; omega) _ _ b hb

theorem contents_length {ts : List Transfer} {b : List Byte} (h : b ∈ ts.flatMap Transfer.contents) : b.length ≤ 8 := by
  obtain ⟨t, -, hb⟩ := List.mem_flatMap.1 h
  exact cutRest_length t.number _ t.payload (Nat.le_refl _) true true b hb

/-- A frame of up to 8 bytes is made, and has the bytes. -/
theorem made_of (id : BitVec 32) (bytes : List Byte) (h : bytes.length ≤ 8) :
    (∃ f, Made id bytes f) ∧ ∀ f, Made id bytes f → f.id = id ∧ f.dlc = bytes.length ∧ bytesOf f = bytes := by
  have key : ∀ n, n < 9 → lengthToDlc 64 n = .ok n ∧ dlcToLength n = n := by decide
  obtain ⟨k1, k2⟩ := key bytes.length (by omega)
  obtain ⟨c1, c2⟩ := C17_construct_no_timestamp 64 id (some bytes) bytes.length
  constructor
  · obtain ⟨f, hf⟩ := c1.2 (fun b hb => by cases hb; omega)
    exact ⟨f, _, k1, hf⟩
  · rintro f ⟨dlc, h1, h2⟩
    rw [k1] at h1
    cases h1
    obtain ⟨-, e1, e2, e3⟩ := c2 f h2
    have e2 : f.dlc = bytes.length := e2
    have el : f.getDataLength = bytes.length := by show dlcToLength f.dlc = _; rw [e2, k2]
    refine ⟨e1, e2, ?_⟩
    apply List.ext_getElem
    · rw [bytesOf, List.length_take, el, Vector.length_toList]
      omega
    · intro j hj1 hj2
      have := e3 j (by omega)
      rw [if_pos (by rw [el]; exact hj2)] at this
      simp only [bytesOf, List.getElem_take, Vector.getElem_toList]
      rw [this]
      simp [hj2]

/-- Frames that are the same have the same bytes. -/
theorem same_bytes {f g : FrameT} (h : Same f g) : bytesOf f = bytesOf g := by
  obtain ⟨-, h2, h3⟩ := h
  have el : f.getDataLength = g.getDataLength := by show dlcToLength f.dlc = dlcToLength g.dlc; rw [h2]
  apply List.ext_getElem
  · simp only [bytesOf, List.length_take, el, Vector.length_toList]
  · intro j hj1 hj2
    simp only [bytesOf, List.length_take, Vector.length_toList] at hj1
    simp only [bytesOf, List.getElem_take, Vector.getElem_toList]
    exact h3 j (by omega) (by omega)

theorem paired_map {α β γ : Type} {P : α → β → Prop} {f : α → γ} {g : β → γ} {as : List α} {bs : List β} (h : Paired P as bs) (hp : ∀ a ∈ as, ∀ b, P a b → f a = g b) :
    as.map f = bs.map g := by
  apply List.ext_getElem?
  intro i
  rw [List.getElem?_map, List.getElem?_map]
  by_cases hi : i < as.length
  · have hb : i < bs.length := by rw [← h.1]; exact hi
    rw [List.getElem?_eq_getElem hi, List.getElem?_eq_getElem hb]
    exact congrArg some (hp _ (List.getElem_mem hi) _ (h.2 i _ _ (List.getElem?_eq_getElem hi) (List.getElem?_eq_getElem hb)))
  · rw [List.getElem?_eq_none (by omega), List.getElem?_eq_none (by have := h.1; omega)]
    rfl

theorem sent_bytes {ts : BitVec 29 → List Transfer} {fs : List FrameT} (h : SentSoFar ts fs) (i : BitVec 29) :
    (ofId i fs).map bytesOf = ((ts i).flatMap Transfer.contents).take (ofId i fs).length := by
  have := paired_map (f := id) (g := bytesOf) (h.2 i) (fun a ha b hb => ((made_of _ a (contents_length (List.mem_of_mem_take ha))).2 b hb).2.2.symm)
  rw [List.map_id] at this
  exact this.symm

theorem sent_good {ts : BitVec 29 → List Transfer} {fs : List FrameT} (h : SentSoFar ts fs) : ∀ f ∈ fs, f.dlc ≤ 8 ∧ canId29 f.id ≠ 0 := by
  intro f hf
  have hm : f ∈ ofId (f.id.setWidth 29) fs := List.mem_filter.2 ⟨hf, beq_self_eq_true _⟩
  obtain ⟨k, hk, he⟩ := List.getElem_of_mem hm
  obtain ⟨l, hp⟩ := h.2 (f.id.setWidth 29)
  have hk' := hk
  rw [← l] at hk'
  have md := hp k _ _ (List.getElem?_eq_getElem hk') (List.getElem?_eq_getElem hk)
  have hb := contents_length (List.mem_of_mem_take (List.getElem_mem hk'))
  have e := ((made_of _ _ hb).2 _ md).2.1
  rw [he] at e
  refine ⟨by omega, fun hz => ?_⟩
  have : f.id.setWidth 29 = 0 := by
    apply BitVec.eq_of_toNat_eq
    rw [BitVec.toNat_setWidth]
    exact hz
  rw [this, h.1] at hk'
  simp at hk'

theorem sentAll_soFar {ts : BitVec 29 → List Transfer} {fs : List FrameT} (h : SentAll ts fs) : SentSoFar ts fs :=
  ⟨h.1, fun i => by rw [← (h.2 i).1, List.take_length]; exact h.2 i⟩

/-- What was got, being the first of what was sent, is the first transfers. -/
theorem transfers_first {ts : BitVec 29 → List Transfer} {fs got : List FrameT} {i : BitVec 29} (h : SentSoFar ts fs) {n : Nat} (hp : Paired Same ((ofId i fs).take n) (ofId i got)) :
    transfersOf i got <+: (ts i).map Transfer.payload := by
  have e := paired_map (f := bytesOf) (g := bytesOf) hp (fun a _ b hb => same_bytes hb)
  unfold transfersOf
  rw [← e, List.map_take, sent_bytes h i, List.take_take, ← collect_all (ts i)]
  have := collect_prefix (((ts i).flatMap Transfer.contents).take (min n (ofId i fs).length)) (((ts i).flatMap Transfer.contents).drop (min n (ofId i fs).length)) none
  rwa [List.take_append_drop] at this

/-- If all was got, all transfers are there. -/
theorem transfers_all {ts : BitVec 29 → List Transfer} {fs got : List FrameT} {i : BitVec 29} (h : SentAll ts fs) (hp : Paired Same (ofId i fs) (ofId i got)) :
    transfersOf i got = (ts i).map Transfer.payload := by
  have e := paired_map (f := bytesOf) (g := bytesOf) hp (fun a _ b hb => same_bytes hb)
  unfold transfersOf
  rw [← e, sent_bytes (sentAll_soFar h) i, ← (h.2 i).1, List.take_length, collect_all]

/-! ## C139 -/

/-- C139: transfers through a queue that is emptied by `write` (C133): at every time the transfers received from each identifier are the first ones sent with it, and when all frames are queued and
written and `read` says SuccessNothing, all have been received. -/
theorem C139_queue {ts : BitVec 29 → List Transfer} {tx rx : Iface} {ops : List (QOp 64)} {c : Stream} (h : Sender.Reaches OnBus (.start tx rx []) ops c) (hs : SentSoFar ts (pushed ops)) :
    (∀ i, transfersOf i c.got <+: (ts i).map Transfer.payload) ∧
    ∀ out ans sock o, SentAll ts (pushed ops) → c.pending = [] → c.sock.answer = some (ans, sock) → c.rx.read out ans = .ok o → o.result = .SuccessNothing →
      ∀ i, transfersOf i c.got = (ts i).map Transfer.payload := by
  obtain ⟨-, -, -, h4, h5⟩ := C133_bus h (sent_good hs)
  refine ⟨fun i => ?_, fun out ans sock o ha hp h1 h2 h3 i => transfers_all ha ((h5 out ans sock o hp h1 h2 h3).2 i)⟩
  obtain ⟨n, hn⟩ := h4 i
  exact transfers_first hs hn

/-- C139: this can always be reached. -/
theorem C139_can_finish {ts : BitVec 29 → List Transfer} {tx rx : Iface} {ops : List (QOp 64)} {c : Stream} (h : Sender.Reaches OnBus (.start tx rx []) ops c) (hs : SentAll ts (pushed ops)) :
    ∃ n c', Sender.Reaches OnBus (.start tx rx []) (ops ++ List.replicate n .pop) c' ∧ c'.pending = [] ∧ ∀ i, transfersOf i c'.got = (ts i).map Transfer.payload := by
  obtain ⟨n, c', h1, h2, h3⟩ := C133_can_finish h (sent_good (sentAll_soFar hs))
  exact ⟨n, c', h1, h2, fun i => transfers_all hs (h3 i)⟩

/-- C139: transfers over redundant buses (C136): the same, whatever buses are cut, as long as one is not. -/
theorem C139_redundant {ts : BitVec 29 → List Transfer} {fs : List FrameT} (hs : SentAll ts fs) {tx rx : Group} {c : Links} (h : Links.Reaches OnBus (.start tx rx fs) c) :
    (∀ i, transfersOf i c.merged <+: (ts i).map Transfer.payload) ∧
    (∀ k out before ans sock o, c.cut k = false → c.pending k = [] → k < c.rx.interfaces.length → (c.sock k).answer = some (ans, sock) → c.rx.read k out before ans = .ok o →
      o.result = .SuccessNothing → ∀ i, transfersOf i c.merged = (ts i).map Transfer.payload) ∧
    ∀ k, k < tx.interfaces.length → k < rx.interfaces.length → c.cut k = false → ∃ c', Links.Reaches OnBus c c' ∧ ∀ i, transfersOf i c'.merged = (ts i).map Transfer.payload := by
  have hg := sent_good (sentAll_soFar hs)
  obtain ⟨h1, -, -, -, h5⟩ := C136_bus hg h
  refine ⟨fun i => ?_, fun k out before ans sock o a1 a2 a3 a4 a5 a6 i => transfers_all hs (paired_filter (same_ofId i) (h5 k out before ans sock o a1 a2 a3 a4 a5 a6)), fun k ht hr hc => ?_⟩
  · have hp : Paired Same (ofId i (fs.take c.merged.length)) (ofId i c.merged) := paired_filter (same_ofId i) h1
    have he : ofId i (fs.take c.merged.length) = (ofId i fs).take (ofId i (fs.take c.merged.length)).length := by
      conv => rhs; rw [← List.take_append_drop c.merged.length fs]
      rw [show ofId i (fs.take c.merged.length ++ fs.drop c.merged.length) = ofId i (fs.take c.merged.length) ++ ofId i (fs.drop c.merged.length) from List.filter_append ..]
      simp
    rw [he] at hp
    exact transfers_first (sentAll_soFar hs) hp
  · obtain ⟨c', h1, h2⟩ := C136_can_finish hg h ht hr hc
    exact ⟨c', h1, fun i => transfers_all hs (paired_filter (same_ofId i) h2)⟩

/-- C139: every transfer can be sent: its frames can be made. -/
theorem C139_frames_exist (t : Transfer) (id : BitVec 32) : ∃ fs, Paired (Made id) t.contents fs := by
  have : ∀ bs : List (List Byte), (∀ b ∈ bs, b.length ≤ 8) → ∃ fs, Paired (Made id) bs fs := by
    intro bs
    induction bs with
    | nil => exact fun _ => ⟨[], rfl, fun i a b h => by simp at h⟩
    | cons b bs ih =>
      intro hb
      obtain ⟨f, hf⟩ := (made_of id b (hb b (List.mem_cons_self ..))).1
      obtain ⟨fs, hl, hp⟩ := ih fun x hx => hb x (List.mem_cons_of_mem _ hx)
      refine ⟨f :: fs, by simp [hl], fun i x y hx hy => ?_⟩
      cases i with
      | zero => cases hx; cases hy; exact hf
      | succ i => exact hp i x y hx hy
  exact this _ (cutRest_length t.number _ t.payload (Nat.le_refl _) true true)

/-- Ten bytes: two frames, which give the ten bytes. The other way round they give nothing. -/
example : (⟨[1, 2, 3, 4, 5, 6, 7, 8, 9, 10], 3⟩ : Transfer).contents = [[1, 2, 3, 4, 5, 6, 7, 0xA3], [8, 9, 10, 0x43]] ∧
    collect none [[1, 2, 3, 4, 5, 6, 7, 0xA3], [8, 9, 10, 0x43]] = [[1, 2, 3, 4, 5, 6, 7, 8, 9, 10]] ∧ collect none [[8, 9, 10, 0x43], [1, 2, 3, 4, 5, 6, 7, 0xA3]] = [] := by
  decide +kernel

/-- A transfer of ten bytes through the queue. -/
example (tx rx : Iface) : ∃ ops c, Sender.Reaches OnBus (.start tx rx []) ops c ∧ transfersOf 5 c.got = [[1, 2, 3, 4, 5, 6, 7, 8, 9, 10]] := by
  obtain ⟨fs, hf⟩ := C139_frames_exist ⟨[1, 2, 3, 4, 5, 6, 7, 8, 9, 10], 3⟩ 5
  have hc : ∀ b ∈ (⟨[1, 2, 3, 4, 5, 6, 7, 8, 9, 10], 3⟩ : Transfer).contents, b.length ≤ 8 := fun b hb => cutRest_length 3 _ _ (Nat.le_refl _) true true b hb
  have hid : ∀ f ∈ fs, f.id.setWidth 29 = (5 : BitVec 29) := fun f hm => by
    obtain ⟨k, hk, rfl⟩ := List.getElem_of_mem hm
    have hk' : k < (⟨[1, 2, 3, 4, 5, 6, 7, 8, 9, 10], 3⟩ : Transfer).contents.length := by rw [hf.1]; exact hk
    rw [((made_of 5 _ (hc _ (List.getElem_mem hk'))).2 _ (hf.2 k _ _ (List.getElem?_eq_getElem hk') (List.getElem?_eq_getElem hk))).1]
    decide
  have push : ∀ fs : List FrameT, ∃ ops c, Sender.Reaches OnBus (.start tx rx []) ops c ∧ pushed ops = fs := by
    intro fs
    have : ∀ (fs done : List FrameT) ops c, Sender.Reaches OnBus (.start tx rx []) ops c → pushed ops = done → ∃ ops c, Sender.Reaches OnBus (.start tx rx []) ops c ∧ pushed ops = done ++ fs := by
      intro fs
      induction fs with
      | nil => exact fun done ops c h hp => ⟨ops, c, h, by rw [hp, List.append_nil]⟩
      | cons f fs ih =>
        intro done ops c h hp
        obtain ⟨ops', c', h', hp'⟩ := ih (done ++ [f]) _ _ (.push f h) (by rw [← hp]; simp [pushed])
        exact ⟨ops', c', h', by rw [hp']; simp⟩
    exact this fs [] [] _ .refl rfl
  obtain ⟨ops, c, h, hp⟩ := push fs
  let ts : BitVec 29 → List Transfer := fun i => if i = 5 then [⟨[1, 2, 3, 4, 5, 6, 7, 8, 9, 10], 3⟩] else []
  have hs : SentAll ts (pushed ops) := by
    refine ⟨rfl, fun i => ?_⟩
    rw [hp]
    by_cases hi : i = 5
    · subst hi
      have e : ofId 5 fs = fs := List.filter_eq_self.2 fun f hm => by rw [hid f hm]; rfl
      rw [e]
      show Paired _ ([_].flatMap Transfer.contents) fs
      rw [List.flatMap_singleton]
      exact hf
    · have e : ofId i fs = [] := List.filter_eq_nil_iff.2 fun f hm => by
        rw [hid f hm, beq_iff_eq]
        exact fun h => hi h.symm
      have et : ts i = [] := if_neg hi
      rw [e, et]
      exact ⟨rfl, fun j a b h => by simp at h⟩
  obtain ⟨n, c', h1, -, h3⟩ := C139_can_finish h hs
  exact ⟨_, c', h1, h3 5⟩

end Uavcan.SocketCan
