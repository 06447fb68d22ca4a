import Verif.Spec.PoolQueue
import Verif.Lemmas.Containers
import Verif.Lemmas.TxQueue

/-!
# Lemmas for the transmit queue on the pool allocator
-/

namespace Uavcan.PoolQueue
open Uavcan.Pool Uavcan.Stl Uavcan.Spec Uavcan.Can

variable {mtu : Nat}

/-- The frame in a node. -/
def frameAt (y : Layout mtu) (mem : Mem) (a : Nat) : Can.Frame mtu := y.dec (readBytes mem (a + y.header) y.size)

theorem frameAt_congr {y : Layout mtu} {m1 m2 : Mem} {a : Nat} (h : ∀ x, a + y.header ≤ x → x < a + y.header + y.size → m1 x = m2 x) :
    frameAt y m1 a = frameAt y m2 a := by
  unfold frameAt
  rw [readBytes_congr h]

theorem map_frameAt_congr {y : Layout mtu} {m1 m2 : Mem} {l : List Nat}
    (h : ∀ a ∈ l, ∀ x, a + y.header ≤ x → x < a + y.header + y.size → m1 x = m2 x) : l.map (frameAt y m1) = l.map (frameAt y m2) :=
  List.map_congr_left fun a ha => frameAt_congr (h a ha)

theorem insertUpper_right {f : Can.Frame mtu} (l1 l2 : List (Can.Frame mtu)) (h : ∀ g ∈ l1, f.gt g = false) :
    insertUpper f (l1 ++ l2) = l1 ++ insertUpper f l2 := by
  induction l1 with
  | nil => rfl
  | cons x l1 ih =>
    rw [List.cons_append, insertUpper, if_neg (by rw [h x List.mem_cons_self]; decide), ih fun g hg => h g (List.mem_cons_of_mem _ hg)]
    rfl

theorem insertUpper_left {f x : Can.Frame mtu} (l1 l2 : List (Can.Frame mtu)) (h : f.gt x = true) :
    insertUpper f (l1 ++ x :: l2) = insertUpper f l1 ++ x :: l2 := by
  induction l1 with
  | nil => simp only [List.nil_append, insertUpper, h, if_true, List.cons_append]
  | cons z l1 ih =>
    rw [List.cons_append, insertUpper, insertUpper]
    split
    · rfl
    · rw [ih]; rfl

theorem place_ok {c : Cfg} (hc : c.WF) {y : Layout mtu} {s : State} {L : List Nat} (h : Own c s L) (hn : y.header + y.size ≤ c.sizeofBlock)
    {f : Can.Frame mtu} {p : Nat} (hp : frameAt y s.mem p = f) : ∀ (t : Tree), (∀ a ∈ t.nodes, a ∈ L) →
    (t.nodes.map (frameAt y s.mem)).Pairwise (fun a b => key a ≤ key b) →
    ∃ t', place c y s f p t = .ok t' ∧ t'.nodes.map (frameAt y s.mem) = insertUpper f (t.nodes.map (frameAt y s.mem)) ∧ t'.nodes.Perm (p :: t.nodes) := by
  intro t
  induction t with
  | nil => exact fun _ _ => ⟨_, rfl, by simp [Tree.nodes, insertUpper, hp], .refl _⟩
  | node l a r ihl ihr =>
    intro hm hs
    simp only [Tree.nodes, List.mem_append, List.mem_cons] at hm
    simp only [Tree.nodes, List.map_append, List.map_cons] at hs
    obtain ⟨sl, sr, slr⟩ := List.pairwise_append.1 hs
    obtain ⟨-, sr'⟩ := List.pairwise_cons.1 sr
    obtain ⟨l', el, ml, pl⟩ := ihl (fun b hb => hm b (.inl hb)) sl
    obtain ⟨r', er, mr, pr⟩ := ihr (fun b hb => hm b (.inr (.inr hb))) sr'
    have hload := h.load hc (hm a (.inr (.inl rfl))) hn
    unfold place
    rw [hload]
    simp only [Outcome.ok_bind]
    have hfa : y.dec (readBytes s.mem (a + y.header) y.size) = frameAt y s.mem a := rfl
    rw [hfa]
    split
    · rename_i hg
      rw [el]
      refine ⟨_, rfl, ?_, ?_⟩
      · simp only [Tree.nodes, List.map_append, List.map_cons]
        rw [insertUpper_left _ _ hg, ml]
      · exact pl.append_right _
    · rename_i hg
      have hg' : f.gt (frameAt y s.mem a) = false := by simpa using hg
      rw [er]
      refine ⟨_, rfl, ?_, ?_⟩
      · simp only [Tree.nodes, List.map_append, List.map_cons]
        rw [insertUpper_right _ _ fun g hgm => ?_, insertUpper, if_neg hg, mr]
        have h1 := (gt_false _ _).1 hg'
        have h2 := slr g hgm _ List.mem_cons_self
        exact (gt_false _ _).2 (by omega)
      · exact ((pr.cons a).append_left _).trans (((List.Perm.swap p a _).append_left _).trans List.perm_middle)

theorem relink_ok {c : Cfg} (hc : c.WF) {links : Nat → List Pool.Byte} {n : Nat} (hl : ∀ a, (links a).length = n) (hn : n ≤ c.sizeofBlock) {L : List Nat} :
    ∀ (as : List Nat) (s : State), Own c s L → (∀ a ∈ as, a ∈ L) → ∃ s', relink c s links as = .ok s' ∧ Own c s' L ∧
      ∀ b ∈ L, ∀ x, b ≤ x → x < b + c.sizeofBlock → (b ∈ as → b + n ≤ x) → s'.mem x = s.mem x := by
  intro as
  induction as with
  | nil => exact fun s h _ => ⟨s, rfl, h, fun _ _ _ _ _ _ => rfl⟩
  | cons a as ih =>
    intro s h hm
    have ha := hm a List.mem_cons_self
    obtain ⟨e1, o1⟩ := h.store hc ha (off := 0) (bs := links a) (by rw [hl]; omega)
    obtain ⟨s', e2, o2, k2⟩ := ih _ o1 fun b hb => hm b (List.mem_cons_of_mem _ hb)
    refine ⟨s', by rw [relink, e1]; exact e2, o2, fun b hb x hx1 hx2 hx3 => ?_⟩
    rw [k2 b hb x hx1 hx2 fun hb' => hx3 (List.mem_cons_of_mem _ hb')]
    apply writeBytes_other
    rw [hl]
    by_cases hab : b = a
    · subst hab
      have := hx3 List.mem_cons_self
      omega
    · have := h.disjoint hc hb ha hab
      omega

theorem dropFirst_nodes : ∀ (t : Tree), t.dropFirst.nodes = t.nodes.tail := by
  intro t
  induction t with
  | nil => rfl
  | node l a r ihl ihr =>
    cases l with
    | nil => rfl
    | node l1 b l2 =>
      unfold Tree.dropFirst
      rw [Tree.nodes, ihl]
      show _ = ((Tree.node l1 b l2).nodes ++ a :: r.nodes).tail
      cases h : (Tree.node l1 b l2).nodes with
      | nil =>
        rw [Tree.nodes] at h
        exact absurd (congrArg List.length h) (by simp)
      | cons x l => rfl

/-- The queue `t` in state `s` holds what waits in `q`; `live` and `mem0` are the blocks of other users and their contents. -/
structure Inv (c : Cfg) (y : Layout mtu) (live : List Nat) (mem0 : Mem) (s : State) (t : Tree) (q : List (Can.Frame mtu)) : Prop where
  own : Own c s (t.nodes ++ live)
  frame : Stl.Frame c live mem0 s.mem
  sorted : Can.Sorted (t.nodes.map (frameAt y s.mem)) q

theorem Sorted.length {l q : List (Can.Frame mtu)} (h : Can.Sorted l q) : l.length = q.length := by
  have : ∀ (q l : List (Can.Frame mtu)), Can.Sorted l q → l.length = q.length := by
    intro q
    induction hn : q.length generalizing q with
    | zero =>
      intro l h
      have : q = [] := List.eq_nil_of_length_eq_zero hn
      subst this
      cases l with
      | nil => rfl
      | cons f l => exact absurd ((h.mem f).1 List.mem_cons_self) (by simp)
    | succ n ih =>
      intro l h
      cases l with
      | nil =>
        have := h.nil
        subst this
        cases hn
      | cons f l =>
        have hf : f ∈ q := (h.mem f).1 List.mem_cons_self
        obtain ⟨-, h2⟩ := h.pop
        have hlen := List.length_erase_of_mem hf
        rw [List.length_cons, ih _ (by omega) _ h2]
  exact this q l h

theorem Inv.length {c : Cfg} {y : Layout mtu} {live : List Nat} {mem0 : Mem} {s : State} {t : Tree} {q : List (Can.Frame mtu)} (h : Inv c y live mem0 s t q) :
    (t.nodes ++ live).length = q.length + live.length := by
  have := Sorted.length h.sorted
  simpa using this

theorem Inv.push {c : Cfg} (hc : c.WF) {y : Layout mtu} (hy : GoodLayout y) (hn : y.header + y.size ≤ c.sizeofBlock) {live : List Nat} {mem0 : Mem} {s : State}
    {t : Tree} {q : List (Can.Frame mtu)} (h : Inv c y live mem0 s t q) {f : Can.Frame mtu} (hf : Storable f) (k : Nat) {links : Nat → List Pool.Byte}
    (hl : ∀ a, (links a).length = y.header) {shape : Tree → Tree} (hs : ∀ t, (shape t).nodes = t.nodes) (hroom : q.length + live.length < c.numBlocks) :
    ∃ s' t', step c y s t (.push f k links shape) = .ok (.queued, s', t') ∧ Inv c y live mem0 s' t' (q ++ [f]) := by
  have hlen := h.length
  obtain ⟨p, s1, e1, m1, p0, pn, o1⟩ := h.own.alloc hc 1 k hc.blockSize_pos (by omega)
  have hpL : p ∈ p :: (t.nodes ++ live) := List.mem_cons_self
  obtain ⟨e2, o2⟩ := o1.store hc hpL (off := y.header) (bs := y.enc f) (by rw [hy.len]; exact hn)
  have hpd : ∀ b ∈ t.nodes ++ live, p + c.sizeofBlock ≤ b ∨ b + c.sizeofBlock ≤ p := fun b hb =>
    o1.disjoint hc hpL (List.mem_cons_of_mem _ hb) (fun e => pn (e ▸ hb))
  have hother : ∀ b ∈ t.nodes ++ live, ∀ x, b ≤ x → x < b + c.sizeofBlock → writeBytes s1.mem (p + y.header) (y.enc f) x = s.mem x := by
    intro b hb x h1 h2
    rw [writeBytes_other _ _ _ _ (by rw [hy.len]; have := hpd b hb; omega), m1]
  have hmap : t.nodes.map (frameAt y (writeBytes s1.mem (p + y.header) (y.enc f))) = t.nodes.map (frameAt y s.mem) :=
    map_frameAt_congr fun a ha x h1 h2 => hother a (List.mem_append_left _ ha) x (by omega) (by omega)
  have hp : frameAt y (writeBytes s1.mem (p + y.header) (y.enc f)) p = f := by
    unfold frameAt
    rw [readBytes_writeBytes' (hy.len f), hy.dec_enc f hf]
  obtain ⟨t', e3, m3, p3⟩ := place_ok hc o2 hn hp t (fun a ha => by simp [ha]) (by simp only; rw [hmap]; exact h.sorted.sorted)
  simp only at m3
  rw [hmap] at m3
  have o3 : Own c { s1 with mem := writeBytes s1.mem (p + y.header) (y.enc f) } (t'.nodes ++ live) := o2.perm (p3.symm.append_right live)
  obtain ⟨s4, e4, o4, k4⟩ := relink_ok hc hl (by omega) t'.nodes _ o3 fun a ha => List.mem_append_left _ ha
  refine ⟨s4, shape t', ?_, ?_, ?_, ?_⟩
  · simp only [step]
    rw [e1]
    simp only [Outcome.ok_bind, reduceCtorEq, if_false, ptrOf]
    rw [e2]
    simp only [Outcome.ok_bind]
    rw [e3]
    simp only [Outcome.ok_bind]
    rw [e4]
    rfl
  · rw [hs]; exact o4
  · intro b hb x h1 h2
    have hnd := o3.nodup hc
    have hbn : b ∉ t'.nodes := fun hb' => (List.nodup_append.1 hnd).2.2 b hb' b hb rfl
    rw [k4 b (List.mem_append_right _ hb) x h1 h2 fun hb' => absurd hb' hbn]
    simp only
    rw [hother b (List.mem_append_right _ hb) x h1 h2]
    exact h.frame b hb x h1 h2
  · rw [hs]
    have : t'.nodes.map (frameAt y s4.mem) = t'.nodes.map (frameAt y (writeBytes s1.mem (p + y.header) (y.enc f))) :=
      map_frameAt_congr fun a ha x h1 h2 => k4 a (List.mem_append_left _ ha) x (by omega) (by omega) fun _ => h1
    rw [this, m3]
    exact h.sorted.insert f

theorem Inv.push_full {c : Cfg} (hc : c.WF) {y : Layout mtu} {live : List Nat} {mem0 : Mem} {s : State} {t : Tree} {q : List (Can.Frame mtu)}
    (h : Inv c y live mem0 s t q) (f : Can.Frame mtu) (k : Nat) (links : Nat → List Pool.Byte) (shape : Tree → Tree) (hfull : ¬ q.length + live.length < c.numBlocks) :
    step c y s t (.push f k links shape) = if c.exceptions then .ok (.refused, s, t) else .ub .nullDeref := by
  have hlen := h.length
  have hle := h.own.length_le hc
  have := h.own.alloc_fails hc 1 k (.inr (by omega))
  simp only [step]
  rw [this]
  unfold Pool.failure
  cases c.exceptions <;> simp [ptrOf, store]

theorem Inv.pop {c : Cfg} (hc : c.WF) {y : Layout mtu} (hn : y.header + y.size ≤ c.sizeofBlock) {live : List Nat} {mem0 : Mem} {s : State}
    {t : Tree} {q : List (Can.Frame mtu)} (h : Inv c y live mem0 s t q) {links : Nat → List Pool.Byte}
    (hl : ∀ a, (links a).length = y.header) {shape : Tree → Tree} (hs : ∀ t, (shape t).nodes = t.nodes) :
    ((winners q).head? = none → step c y s t (.pop links shape) = .ok (.nothing, s, t)) ∧
    ∀ f, (winners q).head? = some f → ∃ s' t', step c y s t (.pop links shape) = .ok (.sent f, s', t') ∧ Inv c y live mem0 s' t' (q.erase f) := by
  cases hn' : t.nodes with
  | nil =>
    have hsort := h.sorted
    rw [hn'] at hsort
    have hq := hsort.nil
    have hw := (winners_nil q).2 hq
    refine ⟨fun _ => ?_, fun f h => ?_⟩
    · unfold step
      simp only [hn']
    · rw [hw] at h
      cases h
  | cons a as =>
    have hsort := h.sorted
    rw [hn', List.map_cons] at hsort
    obtain ⟨hw, hsort'⟩ := hsort.pop
    refine ⟨fun h => ?_, fun f h' => ?_⟩
    · rw [hw] at h
      cases h
    rw [hw] at h'
    obtain rfl := Option.some.inj h'
    have hown := h.own
    rw [hn', List.cons_append] at hown
    have hd := dropFirst_nodes t
    rw [hn', List.tail_cons] at hd
    have hload := hown.load hc List.mem_cons_self hn
    obtain ⟨s1, e1, o1, k1⟩ := relink_ok hc hl (by omega) as s hown fun b hb => List.mem_cons_of_mem _ (List.mem_append_left _ hb)
    obtain ⟨s2, e2, o2, k2⟩ := o1.dealloc hc
    have hnd := hown.nodup hc
    obtain ⟨han, hnd'⟩ := List.nodup_cons.1 hnd
    have hdis : ∀ b ∈ as ++ live, b + c.sizeofBlock ≤ a ∨ a + c.sizeofBlock ≤ b := fun b hb =>
      hown.disjoint hc (List.mem_cons_of_mem _ hb) List.mem_cons_self fun e => han (e ▸ hb)
    refine ⟨s2, shape t.dropFirst, ?_, ?_, ?_, ?_⟩
    · unfold step
      simp only [hn']
      rw [hload]
      simp only [Outcome.ok_bind]
      rw [hd, e1]
      simp only [Outcome.ok_bind]
      rw [e2]
      rfl
    · rw [hs, hd]; exact o2
    · intro b hb x h1 h2
      rw [k2 x (by have := hdis b (List.mem_append_right _ hb); omega)]
      rw [k1 b (List.mem_cons_of_mem _ (List.mem_append_right _ hb)) x h1 h2 fun hb' => absurd rfl ((List.nodup_append.1 hnd').2.2 b hb' b hb)]
      exact h.frame b hb x h1 h2
    · rw [hs, hd]
      have : as.map (frameAt y s2.mem) = as.map (frameAt y s.mem) := map_frameAt_congr fun b hb x h1 h2 => by
        rw [k2 x (by have := hdis b (List.mem_append_left _ hb); omega)]
        exact k1 b (List.mem_cons_of_mem _ (List.mem_append_left _ hb)) x (by omega) (by omega) fun _ => h1
      rw [this]
      exact hsort'

/-- The answers of the specification, and its queue at the end. -/
abbrev ideal (c : Cfg) (live : List Nat) (ops : List (Op mtu)) (q : List (Can.Frame mtu)) : List (Ans mtu) × List (Can.Frame mtu) :=
  bounded (c.numBlocks - live.length) (ops.map Spec.PoolQueue.Op.wish) q

theorem Inv.run {c : Cfg} (hc : c.WF) {y : Layout mtu} (hy : GoodLayout y) (hn : y.header + y.size ≤ c.sizeofBlock) {live : List Nat}
    {mem0 : Mem} (ops : List (Op mtu)) : ∀ {s : State} {t : Tree} {q : List (Can.Frame mtu)}, Inv c y live mem0 s t q → (∀ op ∈ ops, Proper y op) →
    (c.exceptions = true ∨ Ans.refused ∉ (ideal c live ops q).1 → ∃ s' t', PoolQueue.run c y s t ops = .ok ((ideal c live ops q).1, s', t') ∧
      Inv c y live mem0 s' t' (ideal c live ops q).2) ∧
    (c.exceptions = false → Ans.refused ∈ (ideal c live ops q).1 → PoolQueue.run c y s t ops = .ub .nullDeref) := by
  induction ops with
  | nil => exact fun h _ => ⟨fun _ => ⟨_, _, rfl, h⟩, fun _ h => by cases h⟩
  | cons op ops ih =>
    intro s t q h hp
    have hop := hp op List.mem_cons_self
    have hrest : ∀ op ∈ ops, Proper y op := fun o ho => hp o (List.mem_cons_of_mem _ ho)
    -- a call that is answered
    have answered : ∀ (a : Ans mtu) (s1 : State) (t1 : Tree) (q1 : List (Can.Frame mtu)), step c y s t op = .ok (a, s1, t1) → Inv c y live mem0 s1 t1 q1 →
        ideal c live (op :: ops) q = (a :: (ideal c live ops q1).1, (ideal c live ops q1).2) → (a = .refused → c.exceptions = true) →
        (c.exceptions = true ∨ Ans.refused ∉ (ideal c live (op :: ops) q).1 → ∃ s' t', PoolQueue.run c y s t (op :: ops) = .ok ((ideal c live (op :: ops) q).1, s', t') ∧
          Inv c y live mem0 s' t' (ideal c live (op :: ops) q).2) ∧
        (c.exceptions = false → Ans.refused ∈ (ideal c live (op :: ops) q).1 → PoolQueue.run c y s t (op :: ops) = .ub .nullDeref) := by
      intro a s1 t1 q1 e1 i1 hid href
      rw [hid]
      obtain ⟨ih1, ih2⟩ := ih i1 hrest
      refine ⟨fun hx => ?_, fun hx hr => ?_⟩
      · obtain ⟨s', t', e2, i2⟩ := ih1 (hx.imp id fun h h' => h (List.mem_cons_of_mem _ h'))
        refine ⟨s', t', ?_, i2⟩
        rw [PoolQueue.run, e1]
        simp only [Outcome.ok_bind]
        rw [e2]
        rfl
      · rcases List.mem_cons.1 hr with hr | hr
        · have := href hr.symm
          rw [hx] at this
          cases this
        · rw [PoolQueue.run, e1]
          simp only [Outcome.ok_bind]
          rw [ih2 hx hr]
          rfl
    cases op with
    | push f k links shape =>
      obtain ⟨hf, hl, hs⟩ := hop
      by_cases hroom : q.length < c.numBlocks - live.length
      · obtain ⟨s1, t1, e1, i1⟩ := h.push hc hy hn hf k hl hs (by omega)
        refine answered .queued s1 t1 (q ++ [f]) e1 i1 ?_ (fun h => by cases h)
        simp only [ideal, List.map_cons, Spec.PoolQueue.Op.wish]
        rw [bounded, if_pos hroom]
      · have e1 := h.push_full hc f k links shape (by omega)
        have hid : ideal c live (.push f k links shape :: ops) q = (.refused :: (ideal c live ops q).1, (ideal c live ops q).2) := by
          simp only [ideal, List.map_cons, Spec.PoolQueue.Op.wish]
          rw [bounded, if_neg hroom]
        cases hx : c.exceptions with
        | true =>
          rw [hx] at e1
          have := answered .refused s t q e1 h hid (fun _ => hx)
          rw [hx] at this
          exact this
        | false =>
          rw [hx] at e1
          refine ⟨fun h => ?_, fun _ _ => ?_⟩
          · rcases h with h | h
            · cases h
            · rw [hid] at h
              exact absurd List.mem_cons_self h
          · rw [PoolQueue.run, e1]
            rfl
    | pop links shape =>
      obtain ⟨hl, hs⟩ := hop
      have := h.pop hc hn hl hs
      cases hw : (winners q).head? with
      | none =>
        refine answered .nothing s t q (this.1 hw) h ?_ (fun h => by cases h)
        simp only [ideal, List.map_cons, Spec.PoolQueue.Op.wish]
        rw [bounded, hw]
      | some f =>
        obtain ⟨s1, t1, e1, i1⟩ := this.2 f hw
        refine answered (.sent f) s1 t1 (q.erase f) e1 i1 ?_ (fun h => by cases h)
        simp only [ideal, List.map_cons, Spec.PoolQueue.Op.wish]
        rw [bounded, hw]

theorem deallocateAll_ok {c : Cfg} (hc : c.WF) {L : List Nat} : ∀ (as : List Nat) (s : State), Own c s (as ++ L) →
    ∃ s', deallocateAll c s as = .ok s' ∧ Own c s' L ∧ ∀ b ∈ L, ∀ x, b ≤ x → x < b + c.sizeofBlock → s'.mem x = s.mem x := by
  intro as
  induction as with
  | nil => exact fun s h => ⟨s, rfl, h, fun _ _ _ _ _ => rfl⟩
  | cons a as ih =>
    intro s h
    rw [List.cons_append] at h
    obtain ⟨s1, e1, o1, k1⟩ := h.dealloc hc
    obtain ⟨s2, e2, o2, k2⟩ := ih s1 o1
    refine ⟨s2, by rw [deallocateAll, e1]; exact e2, o2, fun b hb x h1 h2 => ?_⟩
    rw [k2 b hb x h1 h2]
    have han := (List.nodup_cons.1 (h.nodup hc)).1
    have := h.disjoint hc (List.mem_cons_of_mem _ (List.mem_append_right as hb)) List.mem_cons_self fun e => han (e ▸ List.mem_append_right as hb)
    exact k1 x (by omega)

end Uavcan.PoolQueue
