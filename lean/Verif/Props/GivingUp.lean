import Verif.Spec.GivingUp
import Verif.Props.Transfer
import Verif.Props.PoolWait
import Verif.Props.TxQueue

/-!
# C145: transfers when the pool has no blocks left
-/

namespace Uavcan.PoolQueue
open Uavcan.Pool Uavcan.Stl Uavcan.Spec Uavcan.Can Uavcan.SocketCan

/-- Nothing is complete with a frame that is not the last. -/
theorem assemble_not_last (st : Option Assembly) (body : List Can.Byte) (first toggle : Bool) (number : Nat) : (assemble st (body ++ [tailByte first false toggle number])).2 = none := by
  rw [assemble_tail]
  split
  · rfl
  · split
    · rfl
    · rfl

/-- The first frames of a transfer give nothing. -/
theorem collect_part (number : Nat) (rest : List (List Can.Byte)) : ∀ m payload (first toggle : Bool) (st : Option Assembly), m < (cutRest number payload first toggle).length →
    ∃ st', collect st ((cutRest number payload first toggle).take m ++ rest) = collect st' rest := by
  intro m
  induction m with
  | zero => exact fun payload first toggle st _ => ⟨st, rfl⟩
  | succ m ih =>
    intro payload first toggle st hm
    rw [cutRest] at hm ⊢
    by_cases h : payload.length ≤ pieceLength
    · rw [dif_pos h] at hm
      simp at hm
    · rw [dif_neg h] at hm ⊢
      obtain ⟨st', e⟩ := ih (payload.drop pieceLength) false (!toggle) (assemble st (payload.take pieceLength ++ [tailByte first false toggle number])).1 (by simpa using hm)
      refine ⟨st', ?_⟩
      rw [List.take_succ_cons, List.cons_append, collect, assemble_not_last, e]
      rfl

/-- The contents of the frames that were accepted. -/
def accepted' (x : Tried) : List (List Can.Byte) := x.transfer.contents.take x.frames

theorem offered_accepted (x : Tried) : (x.offered.filter (·.2)).map (·.1) = accepted' x := by
  have e1 : ((x.transfer.contents.take x.frames).map fun b => (b, true)).filter (·.2) = (x.transfer.contents.take x.frames).map fun b => (b, true) :=
    List.filter_eq_self.2 fun a ha => by
      obtain ⟨b, -, rfl⟩ := List.mem_map.1 ha
      rfl
  have e2 : (x.transfer.contents[x.frames]?.toList.map fun b => (b, false)).filter (·.2) = [] :=
    List.filter_eq_nil_iff.2 fun a ha => by
      obtain ⟨b, -, rfl⟩ := List.mem_map.1 ha
      exact Bool.false_ne_true
  rw [Tried.offered, List.filter_append, e1, e2, List.append_nil, List.map_map]
  exact List.map_id _

theorem flatMap_accepted (xs : List Tried) : ((xs.flatMap Tried.offered).filter (·.2)).map (·.1) = xs.flatMap accepted' := by
  induction xs with
  | nil => rfl
  | cons x xs ih => rw [List.flatMap_cons, List.flatMap_cons, List.filter_append, List.map_append, offered_accepted, ih]

theorem collect_tried (xs : List Tried) : ∀ st, collect st (xs.flatMap accepted') = wholePayloads xs := by
  induction xs with
  | nil => exact fun _ => rfl
  | cons x xs ih =>
    intro st
    rw [List.flatMap_cons]
    by_cases h : x.transfer.contents.length ≤ x.frames
    · have e : wholePayloads (x :: xs) = x.transfer.payload :: wholePayloads xs := by simp [wholePayloads, Tried.complete, h]
      rw [e, accepted', List.take_of_length_le h, Transfer.contents, collect_rest x.transfer.number _ _ x.transfer.payload (Nat.le_refl _) true true st [] rfl, ih]
      rfl
    · have e : wholePayloads (x :: xs) = wholePayloads xs := by simp [wholePayloads, Tried.complete, h]
      obtain ⟨st', e'⟩ := collect_part x.transfer.number (xs.flatMap accepted') x.frames x.transfer.payload true true st (by have := h; rw [Transfer.contents] at this; omega)
      rw [e, accepted', Transfer.contents, e', ih]

theorem pushed_admitted (ops : List (QOp 64)) (as : List (Ans 64)) : pushed (admitted ops as) = ((offers ops as).filter (·.2)).map (·.1) := by
  induction ops generalizing as with
  | nil => cases as <;> rfl
  | cons op ops ih =>
    cases as with
    | nil => cases op <;> rfl
    | cons a as =>
      cases op with
      | pop => cases a <;> exact ih as
      | push f =>
        cases a with
        | refused => exact ih as
        | queued => exact congrArg (f :: ·) (ih as)
        | nothing => exact congrArg (f :: ·) (ih as)
        | sent g => exact congrArg (f :: ·) (ih as)

theorem ofId_admitted (i : BitVec 29) (ops : List (QOp 64)) (as : List (Ans 64)) : ofId i (pushed (admitted ops as)) = ((offersOf i ops as).filter (·.2)).map (·.1) := by
  rw [pushed_admitted, ofId, offersOf, List.filter_map, List.filter_filter, List.filter_filter]
  congr 1
  apply List.filter_congr
  intro x _
  exact Bool.and_comm _ _

theorem offered_length {xs : List Tried} {b : List Can.Byte × Bool} (h : b ∈ xs.flatMap Tried.offered) : b.1.length ≤ 8 := by
  obtain ⟨x, -, hb⟩ := List.mem_flatMap.1 h
  have key : ∀ c ∈ x.transfer.contents, c.length ≤ 8 := cutRest_length x.transfer.number _ x.transfer.payload (Nat.le_refl _) true true
  rcases List.mem_append.1 hb with hb | hb
  · obtain ⟨c, hc, rfl⟩ := List.mem_map.1 hb
    exact key c (List.mem_of_mem_take hc)
  · obtain ⟨c, hc, rfl⟩ := List.mem_map.1 hb
    exact key c (List.mem_of_getElem? (Option.mem_toList.1 hc))

/-- What the accepted frames carry. -/
theorem admitted_bytes {xs : BitVec 29 → List Tried} {ops : List (QOp 64)} {as : List (Ans 64)} (h : GivesUp xs ops as) (i : BitVec 29) :
    (ofId i (pushed (admitted ops as))).map bytesOf = ((((xs i).flatMap Tried.offered).take (offersOf i ops as).length).filter (·.2)).map (·.1) := by
  have e := paired_map (f := id) (g := fun y : FrameT × Bool => (bytesOf y.1, y.2)) (h.2 i) (fun a ha b hb =>
    Prod.ext ((made_of _ a.1 (offered_length (List.mem_of_mem_take ha))).2 b.1 hb.1).2.2.symm hb.2)
  rw [List.map_id] at e
  rw [e, ofId_admitted, List.filter_map, List.map_map, List.map_map]
  rfl

theorem admitted_prefix {xs : BitVec 29 → List Tried} {ops : List (QOp 64)} {as : List (Ans 64)} (h : GivesUp xs ops as) (i : BitVec 29) :
    (ofId i (pushed (admitted ops as))).map bytesOf <+: (xs i).flatMap accepted' := by
  rw [admitted_bytes h, ← flatMap_accepted]
  exact ((List.take_prefix _ _).filter _).map _

theorem admitted_all {xs : BitVec 29 → List Tried} {ops : List (QOp 64)} {as : List (Ans 64)} (h : GivesUp xs ops as) (ha : OfferedAll xs ops as) (i : BitVec 29) :
    (ofId i (pushed (admitted ops as))).map bytesOf = (xs i).flatMap accepted' := by
  rw [admitted_bytes h, ← flatMap_accepted, ← ha i, List.take_length]

theorem collect_of_prefix {as bs : List (List Can.Byte)} (h : as <+: bs) : collect none as <+: collect none bs := by
  obtain ⟨r, rfl⟩ := h
  exact collect_prefix as r none

theorem admitted_good {xs : BitVec 29 → List Tried} {ops : List (QOp 64)} {as : List (Ans 64)} (h : GivesUp xs ops as) : ∀ f ∈ pushed (admitted ops as), f.dlc ≤ 8 ∧ canId29 f.id ≠ 0 := by
  intro f hf
  have hm : f ∈ ofId (f.id.setWidth 29) (pushed (admitted ops as)) := List.mem_filter.2 ⟨hf, beq_self_eq_true _⟩
  rw [ofId_admitted] at hm
  obtain ⟨⟨f', b⟩, hm, e⟩ := List.mem_map.1 hm
  have e : f' = f := e
  subst e
  obtain ⟨k, hk, he⟩ := List.getElem_of_mem (List.mem_filter.1 hm).1
  obtain ⟨l, hp⟩ := h.2 (f'.id.setWidth 29)
  have hk' := hk
  rw [← l] at hk'
  have md := (hp k _ _ (List.getElem?_eq_getElem hk') (List.getElem?_eq_getElem hk)).1
  have hb := offered_length (List.mem_of_mem_take (List.getElem_mem hk'))
  have e := ((made_of _ _ hb).2 _ md).2.1
  rw [he] at e
  refine ⟨by simp only at e; omega, fun hz => ?_⟩
  have : f'.id.setWidth 29 = 0 := by
    apply BitVec.eq_of_toNat_eq
    rw [BitVec.toNat_setWidth]
    exact hz
  rw [this, h.1] at hk'
  simp at hk'

theorem drop_shorter {payload : List Can.Byte} {n : Nat} (h : ¬ payload.length ≤ pieceLength) (hl : payload.length ≤ n + 1) : (payload.drop pieceLength).length ≤ n := by
  simp only [List.length_drop, pieceLength, Type20MaxFrameSizeBytes, TailByteSizeBytes] at *
  omega

/-- A receiver that has no transfer drops frames that are not the first. -/
theorem collect_later (number : Nat) (rest : List (List Can.Byte)) : ∀ n payload, payload.length ≤ n → ∀ toggle : Bool,
    collect none (cutRest number payload false toggle ++ rest) = collect none rest := by
  intro n
  induction n with
  | zero =>
    intro payload hl toggle
    rw [cutRest, dif_pos (by omega), List.cons_append, collect, assemble_tail]
    rfl
  | succ n ih =>
    intro payload hl toggle
    rw [cutRest]
    by_cases h : payload.length ≤ pieceLength
    · rw [dif_pos h, List.cons_append, collect, assemble_tail]
      rfl
    · rw [dif_neg h, List.cons_append, collect, assemble_tail]
      simp only [Bool.false_eq_true, if_false, Option.toList_none, List.nil_append]
      exact ih _ (drop_shorter h hl) _

/-- A receiver drops a transfer with a frame that has the wrong toggle bit. -/
theorem collect_wrong_toggle (number : Nat) (rest : List (List Can.Byte)) (payload acc : List Can.Byte) (toggle : Bool) (m : Nat) :
    collect (some ⟨acc, !toggle, m⟩) (cutRest number payload false toggle ++ rest) = collect none rest := by
  have ne : ¬ (toggle = !toggle ∧ number % 32 = m) := by cases toggle <;> simp
  rw [cutRest]
  by_cases h : payload.length ≤ pieceLength
  · rw [dif_pos h, List.cons_append, collect, assemble_tail]
    simp only [Bool.false_eq_true, if_false, ne]
    rfl
  · rw [dif_neg h, List.cons_append, collect, assemble_tail]
    simp only [Bool.false_eq_true, if_false, ne, Option.toList_none, List.nil_append]
    exact collect_later number rest _ _ (Nat.le_refl _) _

/-- One of the later frames is lost. -/
theorem collect_erase_later (number : Nat) (rest : List (List Can.Byte)) : ∀ k payload (toggle : Bool) (acc : List Can.Byte), k < (cutRest number payload false toggle).length →
    ∃ st, collect (some ⟨acc, toggle, number % 32⟩) ((cutRest number payload false toggle).eraseIdx k ++ rest) = collect st rest := by
  intro k
  induction k with
  | zero =>
    intro payload toggle acc _
    rw [cutRest]
    by_cases h : payload.length ≤ pieceLength
    · rw [dif_pos h]
      exact ⟨_, rfl⟩
    · rw [dif_neg h, List.eraseIdx_cons_zero]
      refine ⟨none, ?_⟩
      have := collect_wrong_toggle number rest (payload.drop pieceLength) acc (!toggle) (number % 32)
      rwa [Bool.not_not] at this
  | succ k ih =>
    intro payload toggle acc hk
    rw [cutRest] at hk ⊢
    by_cases h : payload.length ≤ pieceLength
    · rw [dif_pos h] at hk
      simp at hk
    · rw [dif_neg h] at hk ⊢
      obtain ⟨st, e⟩ := ih (payload.drop pieceLength) (!toggle) (acc ++ payload.take pieceLength) (by simpa using hk)
      refine ⟨st, ?_⟩
      rw [List.eraseIdx_cons_succ, List.cons_append, collect, assemble_tail]
      simp only [Bool.false_eq_true, if_false, and_self, if_true, Option.toList_none, List.nil_append]
      exact e

/-- One frame is lost. -/
theorem collect_erase (t : Transfer) (rest : List (List Can.Byte)) (k : Nat) (hk : k < t.contents.length) : ∃ st, collect none (t.contents.eraseIdx k ++ rest) = collect st rest := by
  rw [Transfer.contents, cutRest] at hk ⊢
  by_cases h : t.payload.length ≤ pieceLength
  · rw [dif_pos h] at hk ⊢
    have : k = 0 := by simpa using hk
    subst this
    exact ⟨none, rfl⟩
  · rw [dif_neg h] at hk ⊢
    cases k with
    | zero => exact ⟨none, collect_later t.number rest _ _ (Nat.le_refl _) _⟩
    | succ k =>
      obtain ⟨st, e⟩ := collect_erase_later t.number rest k (t.payload.drop pieceLength) false (t.payload.take pieceLength) (by simpa using hk)
      refine ⟨st, ?_⟩
      rw [List.eraseIdx_cons_succ, List.cons_append, collect, assemble_tail]
      simp only [Bool.false_eq_true, if_false, and_self, if_true, Option.toList_none, List.nil_append]
      exact e

/-- Transfers that are complete give their payloads, whatever was there before. -/
theorem collect_complete (ts : List Transfer) (rest : List (List Can.Byte)) : collect none (ts.flatMap Transfer.contents ++ rest) = ts.map Transfer.payload ++ collect none rest := by
  induction ts with
  | nil => rfl
  | cons t ts ih =>
    rw [List.flatMap_cons, List.append_assoc, Transfer.contents, collect_rest t.number _ _ t.payload (Nat.le_refl _) true true none [] rfl, ih]
    rfl

theorem collect_complete' (ts : List Transfer) (st : Option Assembly) : collect st (ts.flatMap Transfer.contents) = ts.map Transfer.payload := by
  cases ts with
  | nil => rfl
  | cons t ts =>
    rw [List.flatMap_cons, Transfer.contents, collect_rest t.number _ _ t.payload (Nat.le_refl _) true true st [] rfl, collect_all]
    rfl

/-- The toggle bit after some frames. -/
def toggled (toggle : Bool) (k : Nat) : Bool := toggle ^^ decide (k % 2 = 1)

theorem toggled_succ (toggle : Bool) (k : Nat) : toggled (!toggle) k = toggled toggle (k + 1) := by
  unfold toggled
  by_cases h : k % 2 = 1
  · rw [decide_eq_true h, decide_eq_false (by omega)]
    cases toggle <;> rfl
  · rw [decide_eq_false h, decide_eq_true (by omega)]
    cases toggle <;> rfl

theorem toggled_add (toggle : Bool) (j m : Nat) : toggled toggle (j + m) = if m % 2 = 0 then toggled toggle j else !toggled toggle j := by
  unfold toggled
  by_cases h : j % 2 = 1
  · by_cases hm : m % 2 = 0
    · rw [if_pos hm, decide_eq_true h, decide_eq_true (by omega)]
    · rw [if_neg hm, decide_eq_true h, decide_eq_false (by omega)]
      cases toggle <;> rfl
  · by_cases hm : m % 2 = 0
    · rw [if_pos hm, decide_eq_false h, decide_eq_false (by omega)]
    · rw [if_neg hm, decide_eq_false h, decide_eq_true (by omega)]
      cases toggle <;> rfl

/-- The later frames of a transfer. -/
theorem cutRest_drop (number : Nat) : ∀ k payload (first toggle : Bool), k + 1 < (cutRest number payload first toggle).length →
    (cutRest number payload first toggle).drop (k + 1) = cutRest number (payload.drop (pieceLength * (k + 1))) false (toggled toggle (k + 1)) := by
  intro k
  induction k with
  | zero =>
    intro payload first toggle hk
    rw [cutRest] at hk ⊢
    by_cases h : payload.length ≤ pieceLength
    · rw [dif_pos h] at hk
      simp at hk
    · rw [dif_neg h, List.drop_succ_cons, List.drop_zero, Nat.mul_one]
      cases toggle <;> rfl
  | succ k ih =>
    intro payload first toggle hk
    rw [cutRest] at hk ⊢
    by_cases h : payload.length ≤ pieceLength
    · rw [dif_pos h] at hk
      simp at hk
    · rw [dif_neg h] at hk ⊢
      rw [List.drop_succ_cons, ih _ _ _ (by simpa using hk), List.drop_drop, toggled_succ]
      congr 2
      rw [Nat.mul_succ pieceLength (k + 1), Nat.add_comm]

/-- The receiver after some of the later frames. -/
theorem collect_take_later (number : Nat) (rest : List (List Can.Byte)) : ∀ j payload (toggle : Bool) (acc : List Can.Byte), j < (cutRest number payload false toggle).length →
    collect (some ⟨acc, toggle, number % 32⟩) ((cutRest number payload false toggle).take j ++ rest) =
      collect (some ⟨acc ++ payload.take (pieceLength * j), toggled toggle j, number % 32⟩) rest := by
  intro j
  induction j with
  | zero =>
    intro payload toggle acc _
    have : toggled toggle 0 = toggle := by cases toggle <;> rfl
    simp [this]
  | succ j ih =>
    intro payload toggle acc hj
    rw [cutRest] at hj ⊢
    by_cases h : payload.length ≤ pieceLength
    · rw [dif_pos h] at hj
      simp at hj
    · rw [dif_neg h] at hj ⊢
      rw [List.take_succ_cons, List.cons_append, collect, assemble_tail]
      simp only [Bool.false_eq_true, if_false, and_self, if_true, Option.toList_none, List.nil_append]
      rw [ih _ _ _ (by simpa using hj), toggled_succ, List.append_assoc]
      have e : payload.take pieceLength ++ (payload.drop pieceLength).take (pieceLength * j) = payload.take (pieceLength * (j + 1)) := by
        rw [Nat.mul_succ, Nat.add_comm, List.take_add]
      rw [e]

/-- The receiver after some of the frames, the first being there. -/
theorem collect_take (t : Transfer) (rest : List (List Can.Byte)) (j : Nat) (hj : j + 1 < t.contents.length) :
    collect none (t.contents.take (j + 1) ++ rest) = collect (some ⟨t.payload.take (pieceLength * (j + 1)), toggled true (j + 1), t.number % 32⟩) rest := by
  rw [Transfer.contents, cutRest] at hj ⊢
  by_cases h : t.payload.length ≤ pieceLength
  · rw [dif_pos h] at hj
    simp at hj
  · rw [dif_neg h] at hj ⊢
    rw [List.take_succ_cons, List.cons_append, collect, assemble_tail]
    simp only [Bool.false_eq_true, if_false, and_self, if_true, Option.toList_none, List.nil_append]
    rw [collect_take_later t.number rest j _ _ _ (by simpa using hj), toggled_succ]
    have e : t.payload.take pieceLength ++ (t.payload.drop pieceLength).take (pieceLength * j) = t.payload.take (pieceLength * (j + 1)) := by
      rw [Nat.mul_succ, Nat.add_comm, List.take_add]
    rw [e]

/-! ## C145 -/

/-- C145: transfers are cut into frames, which are offered to a queue on the pool allocator and sent from it. Whatever payload a receiver gets is one that was sent, even if frames were refused. -/
def C145_Statement : Prop :=
  ∀ (c : Cfg) (y : Layout 64) (s : State) (live : List Nat) (ops : List (Op 64)) (as : List (Ans 64)) (s' : State) (t : Tree) (ts : BitVec 29 → List Transfer),
    c.WF → GoodLayout y → y.header + y.size ≤ c.sizeofBlock → c.exceptions = true → History c s live → (∀ op ∈ ops, Proper y op) → run c y s .nil ops = .ok (as, s', t) →
    SentSoFar ts (pushed (ops.map Spec.PoolQueue.Op.wish)) → ∀ i, ∀ p ∈ transfersOf i (sentOf as), p ∈ (ts i).map Transfer.payload

/-- C145 for applications that give up a transfer when one of its frames is refused: what is sent makes up, at every time, the first of those transfers of which every frame was accepted, and all
of them when nothing waits any more. Missing from the full statement: applications that go on with the rest of such a transfer, for which it is false. -/
theorem C145_giving_up_partial {c : Cfg} (hc : c.WF) {y : Layout 64} (hy : GoodLayout y) (hn : y.header + y.size ≤ c.sizeofBlock) (hx : c.exceptions = true)
    {s : State} {live : List Nat} (h : History c s live) (ops : List (Op 64)) (hp : ∀ op ∈ ops, Proper y op) :
    ∃ as s' t, run c y s .nil ops = .ok (as, s', t) ∧ ∀ xs, GivesUp xs (ops.map Spec.PoolQueue.Op.wish) as → ∀ i,
      transfersOf i (sentOf as) <+: wholePayloads (xs i) ∧
      (t.nodes = [] → OfferedAll xs (ops.map Spec.PoolQueue.Op.wish) as → transfersOf i (sentOf as) = wholePayloads (xs i)) := by
  obtain ⟨s', t, e, ht, -⟩ := C134_queue hc hy hn h ops hp (.inl hx)
  refine ⟨_, s', t, e, fun xs hg i => ?_⟩
  generalize hW : ops.map Spec.PoolQueue.Op.wish = W at ht hg
  generalize c.numBlocks - live.length = n at ht hg
  obtain ⟨b1, b2⟩ := bounded_admitted n W []
  have hf := C126_first_come_partial (admitted W (bounded n W []).1) [] i
  rw [← b1, ← b2, List.nil_append, List.filter_append] at hf
  have hf : ofId i (sentOf (bounded n W []).1) ++ ofId i (bounded n W []).2 = ofId i (pushed (admitted W (bounded n W []).1)) := hf
  rw [← collect_tried (xs i) none]
  constructor
  · refine collect_of_prefix (List.IsPrefix.trans ?_ (admitted_prefix hg i))
    rw [← hf, List.map_append]
    exact List.prefix_append _ _
  · intro ht0 ha
    have h2 := ht i
    rw [ht0] at h2
    have h2 : ofId i (bounded n W []).2 = [] := h2.symm
    rw [h2, List.append_nil] at hf
    rw [transfersOf, hf, admitted_all hg ha i]

/-- C145: the same with the frames that were accepted written to a bus from the queue (C133). -/
theorem C145_bus_partial {xs : BitVec 29 → List Tried} {ops : List (QOp 64)} {as : List (Ans 64)} (hg : GivesUp xs ops as) {tx rx : Iface} {c : Stream}
    (h : Sender.Reaches OnBus (.start tx rx []) (admitted ops as) c) :
    (∀ i, transfersOf i c.got <+: wholePayloads (xs i)) ∧
    ∀ out ans sock o, OfferedAll xs ops as → c.pending = [] → c.sock.answer = some (ans, sock) → c.rx.read out ans = .ok o → o.result = .SuccessNothing →
      ∀ i, transfersOf i c.got = wholePayloads (xs i) := by
  obtain ⟨-, -, -, h4, h5⟩ := C133_bus h (admitted_good hg)
  refine ⟨fun i => ?_, fun out ans sock o ha hpd h1 h2 h3 i => ?_⟩
  · obtain ⟨n, hn⟩ := h4 i
    have e := paired_map (f := bytesOf) (g := bytesOf) hn (fun a _ b hb => same_bytes hb)
    rw [← collect_tried (xs i) none, transfersOf, ← e, List.map_take]
    exact collect_of_prefix ((List.take_prefix _ _).trans (admitted_prefix hg i))
  · have e := paired_map (f := bytesOf) (g := bytesOf) ((h5 out ans sock o hpd h1 h2 h3).2 i) (fun a _ b hb => same_bytes hb)
    rw [← collect_tried (xs i) none, transfersOf, ← e, admitted_all hg ha i]

/-- C145: for whatever reason one frame of a transfer is lost, the transfer is lost as a whole, and no other is. -/
theorem C145_one_lost_partial (before after : List Transfer) (t : Transfer) (k : Nat) (hk : k < t.contents.length) :
    collect none (before.flatMap Transfer.contents ++ (t.contents.eraseIdx k ++ after.flatMap Transfer.contents)) = before.map Transfer.payload ++ after.map Transfer.payload := by
  rw [collect_complete]
  obtain ⟨st, e⟩ := collect_erase t (after.flatMap Transfer.contents) k hk
  rw [e, collect_complete']

/-- C145: what becomes of a transfer from the middle of which `m` frames are lost: if `m` is odd it is lost as a whole; if it is even, the receiver does not see it, and gets a payload without the
bytes in these frames. -/
theorem C145_run_lost_partial (before after : List Transfer) (t : Transfer) (j m : Nat) (hj : 0 < j) (hm : j + m < t.contents.length) :
    collect none (before.flatMap Transfer.contents ++ (t.contents.take j ++ (t.contents.drop (j + m) ++ after.flatMap Transfer.contents))) =
      before.map Transfer.payload ++ ((if m % 2 = 0 then [t.payload.take (7 * j) ++ t.payload.drop (7 * (j + m))] else []) ++ after.map Transfer.payload) := by
  obtain ⟨j, rfl⟩ := Nat.exists_eq_succ_of_ne_zero (Nat.ne_of_gt hj)
  have hd : t.contents.drop (j.succ + m) = cutRest t.number (t.payload.drop (pieceLength * (j.succ + m))) false (toggled true (j.succ + m)) := by
    have := cutRest_drop t.number (j + m) t.payload true true (by rw [← Transfer.contents]; omega)
    rw [show j.succ + m = j + m + 1 by omega]
    exact this
  rw [collect_complete, collect_take t _ j (by omega), hd]
  congr 1
  by_cases h : m % 2 = 0
  · have e : toggled true (j + 1) = toggled true (j.succ + m) := by rw [toggled_add true j.succ m, if_pos h]
    rw [if_pos h, e, collect_rest t.number _ _ _ (Nat.le_refl _) false _ _ _ rfl, collect_all]
    rfl
  · have e : toggled true (j + 1) = !toggled true (j.succ + m) := by rw [toggled_add true j.succ m, if_neg h, Bool.not_not]
    rw [if_neg h, e, collect_wrong_toggle, collect_all]
    rfl

/-- Of a transfer of four frames the second is lost, or the second and the third. -/
example (t : Transfer) (h : t.contents.length = 4) : collect none (t.contents.take 1 ++ (t.contents.drop 2 ++ [])) = [] ∧
    collect none (t.contents.take 1 ++ (t.contents.drop 3 ++ [])) = [t.payload.take 7 ++ t.payload.drop 21] :=
  ⟨C145_run_lost_partial [] [] t 1 1 (by decide) (by omega), C145_run_lost_partial [] [] t 1 2 (by decide) (by omega)⟩

/-- A transfer of four frames. -/
def fourFrames : Transfer := ⟨[0, 1, 2, 3, 4, 5, 6, 7, 8, 9, 10, 11, 12, 13, 14, 15, 16, 17, 18, 19, 20, 21, 22, 23, 24, 25, 26, 27], 0⟩

/-- A frame with eight bytes. -/
def eight (bytes : List Can.Byte) : FrameT := { id := 5, data := Vector.ofFn fun i => bytes.getD i.val 0, dlc := 8, timestamp := ⟨0⟩ }

theorem fourFrames_contents : fourFrames.contents =
    [[0, 1, 2, 3, 4, 5, 6, 0xA0], [7, 8, 9, 10, 11, 12, 13, 0x00], [14, 15, 16, 17, 18, 19, 20, 0x20], [21, 22, 23, 24, 25, 26, 27, 0x40]] := by decide +kernel

theorem eight_made : ∀ b ∈ fourFrames.contents, Made 5 b (eight b) := by
  rw [fourFrames_contents]
  intro b hb
  simp only [List.mem_cons, List.not_mem_nil, or_false] at hb
  rcases hb with rfl | rfl | rfl | rfl <;> exact ⟨8, by decide +kernel, by decide +kernel⟩

theorem eight_storable (b : List Can.Byte) : Storable (eight b) := ⟨by show 8 < 256; decide, by show (0 : Int) ≤ 0; decide, by show (0 : Int) < 2 ^ 64; decide⟩

/-- C145 is false of applications that go on: of a transfer of four frames, offered to a queue with one block, the second and the third are refused while the first waits; the toggle bit of the
fourth is what the receiver waits for, and it gets a payload that nobody sent. -/
theorem C145_full_statement_fails : ¬ C145_Statement := by
  intro h
  have hc : (lp64 1 128 0x1000 true).WF := ⟨by decide, by decide, by decide, by decide, by decide, by decide, by decide, by decide⟩
  have hh := History.start (c := lp64 1 128 0x1000 true) fun _ => 0
  let push (b : List Can.Byte) : Op 64 := .push (eight b) 0 (fun _ => List.replicate 32 0) id
  let pop : Op 64 := .pop (fun _ => List.replicate 32 0) id
  have hp : ∀ op ∈ [push [0, 1, 2, 3, 4, 5, 6, 0xA0], push [7, 8, 9, 10, 11, 12, 13, 0x00], push [14, 15, 16, 17, 18, 19, 20, 0x20], pop, push [21, 22, 23, 24, 25, 26, 27, 0x40], pop],
      Proper (plain 8 64) op := by
    intro op hop
    simp only [List.mem_cons, List.not_mem_nil, or_false] at hop
    rcases hop with rfl | rfl | rfl | rfl | rfl | rfl
    · exact ⟨eight_storable _, fun _ => rfl, fun _ => rfl⟩
    · exact ⟨eight_storable _, fun _ => rfl, fun _ => rfl⟩
    · exact ⟨eight_storable _, fun _ => rfl, fun _ => rfl⟩
    · exact ⟨fun _ => rfl, fun _ => rfl⟩
    · exact ⟨eight_storable _, fun _ => rfl, fun _ => rfl⟩
    · exact ⟨fun _ => rfl, fun _ => rfl⟩
  obtain ⟨s', t, e, -⟩ := C134_queue hc (plain_good 8 64) (by decide) hh _ hp (.inl rfl)
  have w : ∀ f : FrameT, (winners [f]).head? = some f := fun f => (head_winners _ _).2 ⟨by simp, [], by simp⟩
  have hb : (bounded ((lp64 1 128 0x1000 true).numBlocks - ([] : List Nat).length) (([push [0, 1, 2, 3, 4, 5, 6, 0xA0], push [7, 8, 9, 10, 11, 12, 13, 0x00],
      push [14, 15, 16, 17, 18, 19, 20, 0x20], pop, push [21, 22, 23, 24, 25, 26, 27, 0x40], pop]).map Spec.PoolQueue.Op.wish) []).1 =
      [.queued, .refused, .refused, .sent (eight [0, 1, 2, 3, 4, 5, 6, 0xA0]), .queued, .sent (eight [21, 22, 23, 24, 25, 26, 27, 0x40])] := by
    simp [push, pop, bounded, Spec.PoolQueue.Op.wish, lp64, w]
  rw [hb] at e
  have := h _ _ _ _ _ _ s' t (fun i => if i = 5 then [fourFrames] else []) hc (plain_good 8 64) (by decide) rfl hh hp e ⟨rfl, fun i => by
    have hpu : pushed (([push [0, 1, 2, 3, 4, 5, 6, 0xA0], push [7, 8, 9, 10, 11, 12, 13, 0x00], push [14, 15, 16, 17, 18, 19, 20, 0x20], pop, push [21, 22, 23, 24, 25, 26, 27, 0x40], pop]).map
        Spec.PoolQueue.Op.wish) = fourFrames.contents.map eight := by rw [fourFrames_contents]; rfl
    rw [hpu]
    by_cases hi : i = 5
    · subst hi
      have e5 : ofId 5 (fourFrames.contents.map eight) = fourFrames.contents.map eight := List.filter_eq_self.2 fun f hf => by
        obtain ⟨b, -, rfl⟩ := List.mem_map.1 hf
        rfl
      rw [e5]
      show Paired _ (([fourFrames].flatMap Transfer.contents).take _) _
      rw [List.flatMap_singleton, List.length_map, List.take_length]
      refine ⟨by simp, fun j a b ha hb => ?_⟩
      rw [List.getElem?_map, ha] at hb
      cases hb
      exact eight_made a (List.mem_of_getElem? ha)
    · have e5 : ofId i (fourFrames.contents.map eight) = [] := List.filter_eq_nil_iff.2 fun f hf => by
        obtain ⟨b, -, rfl⟩ := List.mem_map.1 hf
        intro hx
        exact hi (beq_iff_eq.1 hx).symm
      rw [e5]
      simp only [if_neg hi]
      exact ⟨rfl, fun j a b h => by simp at h⟩⟩ 5
    [0, 1, 2, 3, 4, 5, 6, 21, 22, 23, 24, 25, 26, 27] (by decide +kernel)
  revert this
  decide +kernel

/-- C145: of three transfers the second is given up after its first frame; the others are received. -/
example (a b c : List Can.Byte) (hb : 7 < b.length) (x y z : Nat) :
    wholePayloads [⟨⟨a, x⟩, (⟨a, x⟩ : Transfer).contents.length⟩, ⟨⟨b, y⟩, 1⟩, ⟨⟨c, z⟩, (⟨c, z⟩ : Transfer).contents.length⟩] = [a, c] ∧
    collect none ((⟨a, x⟩ : Transfer).contents ++ ((⟨b, y⟩ : Transfer).contents.take 1 ++ (⟨c, z⟩ : Transfer).contents)) = [a, c] := by
  have hl : ¬ (⟨b, y⟩ : Transfer).contents.length ≤ 1 := by
    have : ¬ b.length ≤ pieceLength := by simp only [pieceLength, Type20MaxFrameSizeBytes, TailByteSizeBytes]; omega
    rw [Transfer.contents, cutRest, dif_neg this, cutRest]
    split <;> simp
  have e : wholePayloads [⟨⟨a, x⟩, (⟨a, x⟩ : Transfer).contents.length⟩, ⟨⟨b, y⟩, 1⟩, ⟨⟨c, z⟩, (⟨c, z⟩ : Transfer).contents.length⟩] = [a, c] := by
    simp [wholePayloads, Tried.complete, hl]
  refine ⟨e, ?_⟩
  rw [← e, ← collect_tried _ none]
  simp [accepted']

end Uavcan.PoolQueue
