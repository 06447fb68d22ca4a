import Verif.Spec.PoolWait
import Verif.Props.PoolQueue
import Verif.Props.Waiting

/-!
# C143: how long a frame waits in a transmit queue on the pool allocator
-/

namespace Uavcan.PoolQueue
open Uavcan.Pool Uavcan.Stl Uavcan.Spec Uavcan.Can

variable {mtu : Nat}

theorem bounded_append (n : Nat) (a b : List (QOp mtu)) (q : List (Can.Frame mtu)) :
    bounded n (a ++ b) q = ((bounded n a q).1 ++ (bounded n b (bounded n a q).2).1, (bounded n b (bounded n a q).2).2) := by
  induction a generalizing q with
  | nil => rfl
  | cons op a ih =>
    cases op with
    | push f =>
      rw [List.cons_append, bounded, bounded]
      split
      · rw [ih]; rfl
      · rw [ih]; rfl
    | pop =>
      rw [List.cons_append, bounded, bounded]
      cases (winners q).head? with
      | none => simp only; rw [ih]; rfl
      | some f => simp only; rw [ih]; rfl

theorem bounded_length (n : Nat) (ops : List (QOp mtu)) (q : List (Can.Frame mtu)) : (bounded n ops q).1.length = ops.length := by
  induction ops generalizing q with
  | nil => rfl
  | cons op ops ih =>
    cases op with
    | push f => rw [bounded]; split <;> simp [ih]
    | pop => rw [bounded]; cases (winners q).head? <;> simp [ih]

theorem bounded_le (n : Nat) (ops : List (QOp mtu)) (q : List (Can.Frame mtu)) (h : q.length ≤ n) : (bounded n ops q).2.length ≤ n := by
  induction ops generalizing q with
  | nil => exact h
  | cons op ops ih =>
    cases op with
    | push f =>
      rw [bounded]
      split
      · exact ih _ (by rw [List.length_append, List.length_singleton]; omega)
      · exact ih _ h
    | pop =>
      rw [bounded]
      cases (winners q).head? with
      | none => exact ih _ h
      | some f => exact ih _ (Nat.le_trans List.length_erase_le h)

/-- A queue with limited room does with what it is asked what one without limits does with what was accepted. -/
theorem bounded_admitted (n : Nat) (ops : List (QOp mtu)) (q : List (Can.Frame mtu)) :
    sentOf (bounded n ops q).1 = (wanted false (admitted ops (bounded n ops q).1) q).1 ∧ (bounded n ops q).2 = (wanted false (admitted ops (bounded n ops q).1) q).2 := by
  induction ops generalizing q with
  | nil => exact ⟨rfl, rfl⟩
  | cons op ops ih =>
    cases op with
    | push f =>
      rw [bounded]
      split
      · simp only [admitted, wanted, Bool.false_and, Bool.false_eq_true, if_false]
        exact ih (q ++ [f])
      · exact ih q
    | pop =>
      rw [bounded]
      cases hw : (winners q).head? with
      | none =>
        simp only [admitted, wanted, hw]
        exact ih q
      | some f =>
        simp only [admitted, wanted, hw]
        exact ⟨congrArg (f :: ·) (ih (q.erase f)).1, (ih (q.erase f)).2⟩

theorem admitted_append (a b : List (QOp mtu)) (as bs : List (Ans mtu)) (h : as.length = a.length) : admitted (a ++ b) (as ++ bs) = admitted a as ++ admitted b bs := by
  induction a generalizing as with
  | nil =>
    cases as with
    | nil => cases b <;> cases bs <;> simp [admitted]
    | cons x as => cases h
  | cons op a ih =>
    cases as with
    | nil => cases h
    | cons x as =>
      have := ih as (by simpa using h)
      cases x <;> simp [admitted, this]

theorem pops_bounded (n : Nat) (ops : List (QOp mtu)) (q : List (Can.Frame mtu)) : pops (admitted ops (bounded n ops q).1) = pops ops := by
  induction ops generalizing q with
  | nil => rfl
  | cons op ops ih =>
    cases op with
    | push f =>
      rw [bounded]
      split
      · exact ih _
      · exact ih _
    | pop =>
      rw [bounded]
      cases (winners q).head? with
      | none => exact congrArg (· + 1) (ih q)
      | some f => exact congrArg (· + 1) (ih (q.erase f))

/-! ## C143 -/

/-- C143: a frame that is refused leaves no trace: what is sent is what a queue with room for all would send had it never been offered. -/
theorem C143_refused {c : Cfg} (hc : c.WF) {y : Layout mtu} (hy : GoodLayout y) (hn : y.header + y.size ≤ c.sizeofBlock) (hx : c.exceptions = true)
    {s : State} {live : List Nat} (h : History c s live) (ops : List (Op mtu)) (hp : ∀ op ∈ ops, Proper y op) :
    ∃ as s' t, run c y s .nil ops = .ok (as, s', t) ∧ sentOf as = (wanted false (admitted (ops.map Spec.PoolQueue.Op.wish) as) []).1 := by
  obtain ⟨s', t, e, -⟩ := C134_queue hc hy hn h ops hp (.inl hx)
  exact ⟨_, s', t, e, (bounded_admitted _ _ []).1⟩

/-- C143: a frame that is accepted has been sent when as many frames have been taken as the pool has blocks left for the queue, and one more for each frame of higher priority that was
accepted since. Of the frames with its identifier it is sent in its place. -/
theorem C143_wait {c : Cfg} (hc : c.WF) {y : Layout 64} (hy : GoodLayout y) (hn : y.header + y.size ≤ c.sizeofBlock) (hx : c.exceptions = true)
    {s : State} {live : List Nat} (h : History c s live) (pre post : List (Op 64)) (f : SocketCan.FrameT) (k : Nat) (links : Nat → List Pool.Byte) (shape : Tree → Tree)
    (hp : ∀ op ∈ pre ++ .push f k links shape :: post, Proper y op) :
    ∃ as a bs s' t, run c y s .nil (pre ++ .push f k links shape :: post) = .ok (as ++ a :: bs, s', t) ∧ as.length = pre.length ∧ bs.length = post.length ∧ (a = .queued ∨ a = .refused) ∧
      (a = .queued → c.numBlocks - live.length + higher f (admitted (post.map Spec.PoolQueue.Op.wish) bs) ≤ pops (post.map Spec.PoolQueue.Op.wish) →
        (ofId (f.id.setWidth 29) (sentOf (as ++ a :: bs)))[(ofId (f.id.setWidth 29) (pushed (admitted (pre.map Spec.PoolQueue.Op.wish) as))).length]? = some f) := by
  obtain ⟨s', t, e, -⟩ := C134_queue hc hy hn h _ hp (.inl hx)
  generalize hN : c.numBlocks - live.length = N at e
  generalize hA : pre.map Spec.PoolQueue.Op.wish = A
  generalize hB : post.map Spec.PoolQueue.Op.wish = B
  have hmap : (pre ++ Op.push f k links shape :: post).map Spec.PoolQueue.Op.wish = A ++ .push f :: B := by
    rw [List.map_append, List.map_cons, hA, hB]; rfl
  rw [hmap] at e
  have hsp := bounded_append N A (.push f :: B) []
  have hAl : (bounded N A []).1.length = A.length := bounded_length ..
  have hlenA : A.length = pre.length := by rw [← hA, List.length_map]
  have hlenB : B.length = post.length := by rw [← hB, List.length_map]
  by_cases hroom : (bounded N A []).2.length < N
  · rw [bounded, if_pos hroom] at hsp
    generalize hbs : bounded N B ((bounded N A []).2 ++ [f]) = bs at hsp
    rw [hsp] at e
    refine ⟨(bounded N A []).1, .queued, bs.1, s', t, e, by omega, by rw [← hbs, bounded_length]; omega, .inl rfl, fun _ hle => ?_⟩
    have hacc := bounded_admitted N (A ++ .push f :: B) []
    rw [hsp] at hacc
    simp only at hacc
    rw [admitted_append _ _ _ _ hAl] at hacc
    have hcons : admitted (QOp.push f :: B) (Ans.queued :: bs.1) = .push f :: admitted B bs.1 := rfl
    rw [hcons] at hacc
    have hpre := (bounded_admitted N A []).2
    have hpops : pops (admitted B bs.1) = pops B := by rw [← hbs]; exact pops_bounded ..
    rw [hacc.1]
    generalize admitted A (bounded N A []).1 = A' at *
    generalize admitted B bs.1 = B' at *
    obtain ⟨out, left, hq⟩ := C126_runs .multiset (A' ++ QOp.push f :: B') ([] : List (Can.Frame 64))
    have hout := (C126_multiset_partial _ _ _ hq).1
    have hbef : before f (wanted false A' []).2 ≤ (bounded N A []).2.length := by
      rw [hpre]; exact List.length_filter_le ..
    have hturn : HasTurn f (wanted false A' []).2 B' := ⟨B', List.prefix_refl _, by omega⟩
    have hlt := (SocketCan.C141_queue hq).1 hturn
    rw [hout] at hlt
    have hfc := C126_first_come_partial (A' ++ QOp.push f :: B') [] (f.id.setWidth 29)
    rw [List.nil_append, List.filter_append] at hfc
    have hpu : pushed (A' ++ QOp.push f :: B') = pushed A' ++ f :: pushed B' := by simp [pushed, List.filterMap_append]
    rw [hpu, List.filter_append, List.filter_cons, if_pos (by simp)] at hfc
    have hg := congrArg (fun l : List (Can.Frame 64) => l[(ofId (f.id.setWidth 29) (pushed A')).length]?) hfc
    rw [List.getElem?_append_left (by exact hlt)] at hg
    show (List.filter _ _)[_]? = _
    rw [hg]
    show (ofId (f.id.setWidth 29) (pushed A') ++ _)[_]? = _
    simp
  · rw [bounded, if_neg hroom] at hsp
    rw [hsp] at e
    exact ⟨(bounded N A []).1, .refused, _, s', t, e, by omega, by rw [bounded_length]; omega, .inr rfl, fun h => by cases h⟩

theorem bounded_fill (n : Nat) (f : Can.Frame mtu) (m : Nat) : ∀ q : List (Can.Frame mtu), q.length + m ≤ n →
    bounded n (List.replicate m (.push f)) q = (List.replicate m .queued, q ++ List.replicate m f) := by
  induction m with
  | zero => intro q _; simp [bounded]
  | succ m ih =>
    intro q h
    rw [List.replicate_succ, bounded, if_pos (by omega), ih _ (by rw [List.length_append, List.length_singleton]; omega)]
    simp [List.replicate_succ]

/-- C143: priority does not help to be accepted: when frames of whatever priority have all blocks, a frame of higher priority is refused. -/
theorem C143_inversion {c : Cfg} (hc : c.WF) {y : Layout mtu} (hy : GoodLayout y) (hn : y.header + y.size ≤ c.sizeofBlock) (hx : c.exceptions = true)
    {s : State} {live : List Nat} (h : History c s live) (f g : Can.Frame mtu) (hf : Storable f) (hg : Storable g) (k : Nat) (links : Nat → List Pool.Byte)
    (hl : ∀ a, (links a).length = y.header) :
    ∃ s' t, run c y s .nil (List.replicate (c.numBlocks - live.length) (.push f k links id) ++ [.push g k links id]) =
      .ok (List.replicate (c.numBlocks - live.length) .queued ++ [.refused], s', t) := by
  obtain ⟨s', t, e, -⟩ := C134_queue hc hy hn h (List.replicate (c.numBlocks - live.length) (.push f k links id) ++ [.push g k links id]) (by
    intro op hop
    rcases List.mem_append.1 hop with hop | hop
    · rw [(List.mem_replicate.1 hop).2]
      exact ⟨hf, hl, fun _ => rfl⟩
    · rw [List.mem_singleton.1 hop]
      exact ⟨hg, hl, fun _ => rfl⟩) (.inl hx)
  refine ⟨s', t, ?_⟩
  rw [e, List.map_append, List.map_replicate, bounded_append]
  have hfill : bounded (c.numBlocks - live.length) (List.replicate (c.numBlocks - live.length) (Spec.PoolQueue.Op.wish (Op.push f k links id))) [] =
      (List.replicate (c.numBlocks - live.length) .queued, List.replicate (c.numBlocks - live.length) f) := bounded_fill _ f _ [] (by simp)
  rw [hfill]
  simp [bounded, Spec.PoolQueue.Op.wish]

/-- C143: two blocks left: a frame of the lowest priority that is accepted is sent when two frames have been taken, whatever the other one was. -/
example {s : State} {a : Nat} (h : History (lp64 3 128 0x1000 true) s [a]) (f g : SocketCan.FrameT) (hf : Storable f) (hg : Storable g) (sp : Nat) :
    ∃ as s' t, run (lp64 3 128 0x1000 true) (plain 8 64) s .nil [.push g sp (fun _ => List.replicate 32 0) id, .push f sp (fun _ => List.replicate 32 0) id,
      .pop (fun _ => List.replicate 32 0) id, .pop (fun _ => List.replicate 32 0) id] = .ok (as, s', t) ∧ f ∈ sentOf as := by
  have hc : (lp64 3 128 0x1000 true).WF := ⟨by decide, by decide, by decide, by decide, by decide, by decide, by decide, by decide⟩
  have hp : ∀ op ∈ ([.push g sp (fun _ => List.replicate 32 0) id] ++ .push f sp (fun _ => List.replicate 32 0) id ::
      [.pop (fun _ => List.replicate 32 0) id, .pop (fun _ => List.replicate 32 0) id] : List (Op 64)), Proper (plain 8 64) op := by
    intro op hop
    simp only [List.cons_append, List.nil_append, List.mem_cons, List.not_mem_nil, or_false] at hop
    rcases hop with rfl | rfl | rfl | rfl
    · exact ⟨hg, fun _ => rfl, fun _ => rfl⟩
    · exact ⟨hf, fun _ => rfl, fun _ => rfl⟩
    all_goals exact ⟨fun _ => rfl, fun _ => rfl⟩
  obtain ⟨as, x, bs, s', t, e, h1, h2, h3, h4⟩ := C143_wait hc (plain_good 8 64) (by decide) rfl h [.push g sp (fun _ => List.replicate 32 0) id]
    [.pop (fun _ => List.replicate 32 0) id, .pop (fun _ => List.replicate 32 0) id] f sp (fun _ => List.replicate 32 0) id hp
  refine ⟨_, s', t, e, ?_⟩
  obtain ⟨s1, t1, e1, -⟩ := C134_queue hc (plain_good 8 64) (by decide) h _ hp (.inl rfl)
  rw [e] at e1
  obtain ⟨y1, rfl⟩ := List.length_eq_one_iff.1 h1
  obtain ⟨y2, bs, rfl⟩ := List.exists_cons_of_length_eq_add_one h2
  obtain ⟨y3, rfl⟩ := List.length_eq_one_iff.1 (Nat.succ.inj h2)
  have hans := congrArg (fun r : List (Ans 64) => r[1]?) (congrArg Prod.fst (Outcome.ok.inj e1))
  have hx : x = .queued := by
    simp [bounded, Spec.PoolQueue.Op.wish, lp64] at hans
    exact hans
  have := h4 hx (by
    have : higher f (admitted ([Op.pop (fun _ => List.replicate 32 0) id, .pop (fun _ => List.replicate 32 0) id].map Spec.PoolQueue.Op.wish) [y2, y3]) = 0 := by
      cases y2 <;> cases y3 <;> rfl
    rw [this]
    exact Nat.le_refl 2)
  exact (List.mem_filter.1 (List.mem_of_getElem? this)).1

end Uavcan.PoolQueue
