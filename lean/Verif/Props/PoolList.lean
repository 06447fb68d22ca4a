import Verif.Spec.PoolList
import Verif.Lemmas.PoolQueue

/-!
# C142: a list on the pool allocator
-/

namespace Uavcan.PoolList
open Uavcan.Pool Uavcan.Stl Uavcan.Spec Uavcan.PoolQueue

/-- The element in a node. -/
def elemAt (y : Ty) (mem : Mem) (a : Nat) : List Pool.Byte := readBytes mem (a + y.header) y.sizeT

theorem map_elemAt_congr {y : Ty} {m1 m2 : Mem} {l : List Nat}
    (h : ∀ a ∈ l, ∀ x, a + y.header ≤ x → x < a + y.header + y.sizeT → m1 x = m2 x) : l.map (elemAt y m1) = l.map (elemAt y m2) :=
  List.map_congr_left fun a ha => readBytes_congr (h a ha)

/-- The list with these nodes in state `s` has the elements `q`; `live` and `mem0` are the blocks of other users and their contents. -/
structure ListInv (c : Cfg) (y : Ty) (live : List Nat) (mem0 : Mem) (s : State) (nodes : List Nat) (q : List (List Pool.Byte)) : Prop where
  own : Own c s (nodes ++ live)
  frame : Stl.Frame c live mem0 s.mem
  elems : nodes.map (elemAt y s.mem) = q

theorem ListInv.length {c : Cfg} {y : Ty} {live : List Nat} {mem0 : Mem} {s : State} {nodes : List Nat} {q : List (List Pool.Byte)}
    (h : ListInv c y live mem0 s nodes q) : nodes.length = q.length := by rw [← h.elems, List.length_map]

theorem insertIdx_take {α : Type} (l : List α) (i : Nat) (e : α) (h : i ≤ l.length) : l.insertIdx i e = l.take i ++ e :: l.drop i := by
  induction l generalizing i with
  | nil => cases i with
    | zero => rfl
    | succ i => exact absurd h (by simp)
  | cons x l ih => cases i with
    | zero => rfl
    | succ i =>
      rw [List.insertIdx_succ_cons, ih i (by simpa using h)]
      rfl

theorem perm_insert (nodes live : List Nat) (i p : Nat) : (p :: (nodes ++ live)).Perm ((nodes.take i ++ p :: nodes.drop i) ++ live) := by
  have h : (p :: nodes).Perm (nodes.take i ++ p :: nodes.drop i) := by
    have := (List.perm_middle (a := p) (l₁ := nodes.take i) (l₂ := nodes.drop i)).symm
    rwa [List.take_append_drop] at this
  exact h.append_right live

theorem ListInv.insert {c : Cfg} (hc : c.WF) {y : Ty} (hn : y.header + y.sizeT ≤ c.sizeofBlock) {live : List Nat} {mem0 : Mem} {s : State}
    {nodes : List Nat} {q : List (List Pool.Byte)} (h : ListInv c y live mem0 s nodes q) {e : List Pool.Byte} (he : e.length = y.sizeT) (i k : Nat) {links : Nat → List Pool.Byte}
    (hl : ∀ a, (links a).length = y.header) (hi : i ≤ q.length) (hroom : q.length + live.length < c.numBlocks) :
    ∃ s' nodes', step c y s nodes (.insert i e k links) = .ok (.done, s', nodes') ∧ ListInv c y live mem0 s' nodes' (q.insertIdx i e) := by
  have hlen := h.length
  obtain ⟨p, s1, e1, m1, p0, pn, o1⟩ := h.own.alloc hc 1 k hc.blockSize_pos (by rw [List.length_append]; omega)
  have hpL : p ∈ p :: (nodes ++ live) := List.mem_cons_self
  obtain ⟨e2, o2⟩ := o1.store hc hpL (off := y.header) (bs := e) (by rw [he]; exact hn)
  have hother : ∀ b ∈ nodes ++ live, ∀ x, b ≤ x → x < b + c.sizeofBlock → writeBytes s1.mem (p + y.header) e x = s.mem x := by
    intro b hb x h1 h2
    have hpd := o1.disjoint hc hpL (List.mem_cons_of_mem _ hb) (fun e => pn (e ▸ hb))
    rw [writeBytes_other _ _ _ _ (by rw [he]; omega), m1]
  have o3 := o2.perm (perm_insert nodes live i p)
  obtain ⟨s4, e4, o4, k4⟩ := relink_ok hc hl (by omega) (nodes.take i ++ p :: nodes.drop i) _ o3 fun a ha => List.mem_append_left _ ha
  refine ⟨s4, nodes.take i ++ p :: nodes.drop i, ?_, o4, ?_, ?_⟩
  · simp only [step]
    rw [if_pos (by omega), e1]
    simp only [Outcome.ok_bind, reduceCtorEq, if_false, ptrOf]
    rw [e2]
    simp only [Outcome.ok_bind]
    rw [e4]
    rfl
  · intro b hb x h1 h2
    have hnd := o3.nodup hc
    have hbn : b ∉ nodes.take i ++ p :: nodes.drop i := fun hb' => (List.nodup_append.1 hnd).2.2 b hb' b hb rfl
    rw [k4 b (List.mem_append_right _ hb) x h1 h2 fun hb' => absurd hb' hbn]
    simp only
    rw [hother b (List.mem_append_right _ hb) x h1 h2]
    exact h.frame b hb x h1 h2
  · have h1 : (nodes.take i ++ p :: nodes.drop i).map (elemAt y s4.mem) = (nodes.take i ++ p :: nodes.drop i).map (elemAt y (writeBytes s1.mem (p + y.header) e)) :=
      map_elemAt_congr fun a ha x h1 h2 => k4 a (List.mem_append_left _ ha) x (by omega) (by omega) fun _ => h1
    have hmap : nodes.map (elemAt y (writeBytes s1.mem (p + y.header) e)) = q := by
      rw [← h.elems]
      exact map_elemAt_congr fun a ha x h1 h2 => hother a (List.mem_append_left _ ha) x (by omega) (by omega)
    have hp : elemAt y (writeBytes s1.mem (p + y.header) e) p = e := readBytes_writeBytes' he
    rw [h1, List.map_append, List.map_cons, hp, List.map_take, List.map_drop, hmap, insertIdx_take _ _ _ hi]

theorem ListInv.insert_full {c : Cfg} (hc : c.WF) {y : Ty} {live : List Nat} {mem0 : Mem} {s : State} {nodes : List Nat} {q : List (List Pool.Byte)}
    (h : ListInv c y live mem0 s nodes q) (e : List Pool.Byte) (i k : Nat) (links : Nat → List Pool.Byte) (hi : i ≤ q.length) (hfull : ¬ q.length + live.length < c.numBlocks) :
    step c y s nodes (.insert i e k links) = if c.exceptions then .ok (.badAlloc, s, nodes) else .ub .nullDeref := by
  have hlen := h.length
  have hle := h.own.length_le hc
  rw [List.length_append] at hle
  have := h.own.alloc_fails hc 1 k (.inr (by rw [List.length_append]; omega))
  simp only [step]
  rw [if_pos (by omega), this]
  unfold Pool.failure
  cases c.exceptions <;> simp [ptrOf, store]

theorem ListInv.erase {c : Cfg} (hc : c.WF) {y : Ty} (hn : y.header + y.sizeT ≤ c.sizeofBlock) {live : List Nat} {mem0 : Mem} {s : State}
    {nodes : List Nat} {q : List (List Pool.Byte)} (h : ListInv c y live mem0 s nodes q) (i : Nat) {links : Nat → List Pool.Byte}
    (hl : ∀ a, (links a).length = y.header) (hi : i < q.length) :
    ∃ s' nodes', step c y s nodes (.erase i links) = .ok (.done, s', nodes') ∧ ListInv c y live mem0 s' nodes' (q.eraseIdx i) := by
  have hlen := h.length
  have hi' : i < nodes.length := by omega
  have hsplit : nodes = nodes.take i ++ nodes[i] :: nodes.drop (i + 1) := by
    rw [List.getElem_cons_drop, List.take_append_drop]
  have hperm : (nodes ++ live).Perm (nodes[i] :: ((nodes.take i ++ nodes.drop (i + 1)) ++ live)) := by
    conv => lhs; rw [hsplit]
    rw [← List.cons_append]
    exact List.perm_middle.append_right live
  have hown := h.own.perm hperm
  obtain ⟨s1, e1, o1, k1⟩ := relink_ok hc hl (by omega) (nodes.take i ++ nodes.drop (i + 1)) s hown fun b hb => List.mem_cons_of_mem _ (List.mem_append_left _ hb)
  obtain ⟨s2, e2, o2, k2⟩ := o1.dealloc hc
  obtain ⟨han, hnd'⟩ := List.nodup_cons.1 (hown.nodup hc)
  have hdis : ∀ b ∈ (nodes.take i ++ nodes.drop (i + 1)) ++ live, b + c.sizeofBlock ≤ nodes[i] ∨ nodes[i] + c.sizeofBlock ≤ b := fun b hb =>
    hown.disjoint hc (List.mem_cons_of_mem _ hb) List.mem_cons_self fun e => han (e ▸ hb)
  refine ⟨s2, nodes.take i ++ nodes.drop (i + 1), ?_, o2, ?_, ?_⟩
  · simp only [step]
    rw [List.getElem?_eq_getElem hi']
    simp only
    rw [e1]
    simp only [Outcome.ok_bind]
    rw [e2]
    rfl
  · intro b hb x h1 h2
    rw [k2 x (by have := hdis b (List.mem_append_right _ hb); omega)]
    rw [k1 b (List.mem_cons_of_mem _ (List.mem_append_right _ hb)) x h1 h2 fun hb' => absurd rfl ((List.nodup_append.1 hnd').2.2 b hb' b hb)]
    exact h.frame b hb x h1 h2
  · have : (nodes.take i ++ nodes.drop (i + 1)).map (elemAt y s2.mem) = (nodes.take i ++ nodes.drop (i + 1)).map (elemAt y s.mem) := map_elemAt_congr fun b hb x h1 h2 => by
      rw [k2 x (by have := hdis b (List.mem_append_left _ hb); omega)]
      exact k1 b (List.mem_cons_of_mem _ (List.mem_append_left _ hb)) x (by omega) (by omega) fun _ => h1
    rw [this, List.map_append, List.map_take, List.map_drop, h.elems, List.eraseIdx_eq_take_drop_succ]

theorem ListInv.get {c : Cfg} (hc : c.WF) {y : Ty} (hn : y.header + y.sizeT ≤ c.sizeofBlock) {live : List Nat} {mem0 : Mem} {s : State}
    {nodes : List Nat} {q : List (List Pool.Byte)} (h : ListInv c y live mem0 s nodes q) (i : Nat) {e : List Pool.Byte} (hi : q[i]? = some e) :
    step c y s nodes (.get i) = .ok (.value e, s, nodes) := by
  rw [← h.elems, List.getElem?_map] at hi
  cases ha : nodes[i]? with
  | none => rw [ha] at hi; cases hi
  | some a =>
    rw [ha] at hi
    cases hi
    simp only [step]
    rw [ha]
    simp only
    rw [h.own.load hc (List.mem_append_left _ (List.mem_of_getElem? ha)) hn]
    rfl

theorem ListInv.run {c : Cfg} (hc : c.WF) {y : Ty} (hn : y.header + y.sizeT ≤ c.sizeofBlock) {live : List Nat} {mem0 : Mem} (ops : List Op) :
    ∀ {s : State} {nodes : List Nat} {q : List (List Pool.Byte)}, ListInv c y live mem0 s nodes q → (∀ op ∈ ops, ListProper y op) →
    ∀ {as : List Answer} {q' : List (List Pool.Byte)}, listOf (c.numBlocks - live.length) ops q = some (as, q') →
    (c.exceptions = true ∨ Answer.badAlloc ∉ as → ∃ s' nodes', PoolList.run c y s nodes ops = .ok (as, s', nodes') ∧ ListInv c y live mem0 s' nodes' q') ∧
    (c.exceptions = false → Answer.badAlloc ∈ as → PoolList.run c y s nodes ops = .ub .nullDeref) := by
  induction ops with
  | nil =>
    intro s nodes q h _ as q' hs
    cases hs
    exact ⟨fun _ => ⟨s, nodes, rfl, h⟩, fun _ hm => by cases hm⟩
  | cons op ops ih =>
    intro s nodes q h hp as q' hs
    have hop := hp op List.mem_cons_self
    have hrest : ∀ op ∈ ops, ListProper y op := fun o ho => hp o (List.mem_cons_of_mem _ ho)
    -- a call that is answered
    have answered : ∀ (a : Answer) (s1 : State) (n1 : List Nat) (q1 : List (List Pool.Byte)) (as1 : List Answer), step c y s nodes op = .ok (a, s1, n1) → ListInv c y live mem0 s1 n1 q1 →
        listOf (c.numBlocks - live.length) ops q1 = some (as1, q') → as = a :: as1 → (a = .badAlloc → c.exceptions = true) →
        (c.exceptions = true ∨ Answer.badAlloc ∉ as → ∃ s' nodes', PoolList.run c y s nodes (op :: ops) = .ok (as, s', nodes') ∧ ListInv c y live mem0 s' nodes' q') ∧
        (c.exceptions = false → Answer.badAlloc ∈ as → PoolList.run c y s nodes (op :: ops) = .ub .nullDeref) := by
      rintro a s1 n1 q1 as1 e1 i1 hid rfl href
      obtain ⟨ih1, ih2⟩ := ih i1 hrest hid
      refine ⟨fun hx => ?_, fun hx hr => ?_⟩
      · obtain ⟨s', t', e2, i2⟩ := ih1 (hx.imp id fun h h' => h (List.mem_cons_of_mem _ h'))
        refine ⟨s', t', ?_, i2⟩
        rw [PoolList.run, e1]
        simp only [Outcome.ok_bind]
        rw [e2]
        rfl
      · rcases List.mem_cons.1 hr with hr | hr
        · have := href hr.symm
          rw [hx] at this
          cases this
        · rw [PoolList.run, e1]
          simp only [Outcome.ok_bind]
          rw [ih2 hx hr]
          rfl
    cases op with
    | insert i e k links =>
      obtain ⟨he, hl⟩ := hop
      rw [listOf] at hs
      by_cases hi : i ≤ q.length
      · rw [if_pos hi] at hs
        by_cases hroom : q.length < c.numBlocks - live.length
        · rw [if_pos hroom] at hs
          obtain ⟨r, hr, hrr⟩ := Option.map_eq_some_iff.1 hs
          obtain ⟨s1, n1, e1, i1⟩ := h.insert hc hn he i k hl hi (by omega)
          cases hrr
          exact answered .done s1 n1 _ r.1 e1 i1 hr rfl (fun h => by cases h)
        · rw [if_neg hroom] at hs
          obtain ⟨r, hr, hrr⟩ := Option.map_eq_some_iff.1 hs
          cases hrr
          have e1 := h.insert_full hc e i k links hi (by omega)
          cases hx : c.exceptions with
          | true =>
            rw [hx] at e1
            have := answered .badAlloc s nodes q r.1 e1 h hr rfl (fun _ => hx)
            rw [hx] at this
            exact this
          | false =>
            rw [hx] at e1
            refine ⟨fun h => ?_, fun _ _ => ?_⟩
            · rcases h with h | h
              · cases h
              · exact absurd List.mem_cons_self h
            · rw [PoolList.run, e1]
              rfl
      · rw [if_neg hi] at hs
        cases hs
    | erase i links =>
      rw [listOf] at hs
      by_cases hi : i < q.length
      · rw [if_pos hi] at hs
        obtain ⟨r, hr, hrr⟩ := Option.map_eq_some_iff.1 hs
        cases hrr
        obtain ⟨s1, n1, e1, i1⟩ := h.erase hc hn i hop hi
        exact answered .done s1 n1 _ r.1 e1 i1 hr rfl (fun h => by cases h)
      · rw [if_neg hi] at hs
        cases hs
    | get i =>
      rw [listOf] at hs
      cases hq : q[i]? with
      | none => rw [hq] at hs; cases hs
      | some e =>
        rw [hq] at hs
        simp only at hs
        obtain ⟨r, hr, hrr⟩ := Option.map_eq_some_iff.1 hs
        cases hrr
        exact answered (.value e) s nodes q r.1 (h.get hc hn i hq) h hr rfl (fun h => by cases h)

theorem ListInv.start {c : Cfg} {s : State} {live : List Nat} (h : History c s live) (y : Ty) : ListInv c y live s.mem s [] [] :=
  ⟨Own.of_history h, fun _ _ _ _ _ => rfl, rfl⟩

/-! ## C142 -/

/-- C142: a `std::list` on the pool allocator, with blocks a node fits into and with exceptions (or as long as nothing is refused), is a list with room for as many elements as the pool
has blocks left, however long it is used: an element is refused exactly if it holds that many; other users' blocks are not touched; there is exactly one block for each
element; and when it is destroyed all of them are free. -/
theorem C142_list {c : Cfg} (hc : c.WF) {y : Ty} (hn : y.header + y.sizeT ≤ c.sizeofBlock) {s : State} {live : List Nat} (h : History c s live)
    {ops : List Op} (hp : ∀ op ∈ ops, ListProper y op) {as : List Answer} {q : List (List Pool.Byte)} (hs : listOf (c.numBlocks - live.length) ops [] = some (as, q))
    (hx : c.exceptions = true ∨ Answer.badAlloc ∉ as) :
    ∃ s' nodes s'', run c y s [] ops = .ok (as, s', nodes) ∧ nodes.length = q.length ∧ Own c s' (nodes ++ live) ∧ Stl.Frame c live s.mem s'.mem ∧
      destroy c s' nodes = .ok s'' ∧ Own c s'' live ∧ Stl.Frame c live s.mem s''.mem := by
  obtain ⟨s', nodes, e, i⟩ := ((ListInv.start h y).run hc hn ops hp hs).1 hx
  obtain ⟨s'', e1, o1, k1⟩ := deallocateAll_ok hc nodes s' i.own
  exact ⟨s', nodes, s'', e, i.length, i.own, i.frame, e1, o1, fun b hb x h1 h2 => by rw [k1 b hb x h1 h2]; exact i.frame b hb x h1 h2⟩

/-- C142: without exceptions the first element too many is undefined: the list writes to the null pointer that `allocate` returns. -/
theorem C142_without_exceptions {c : Cfg} (hc : c.WF) (hx : c.exceptions = false) {y : Ty} (hn : y.header + y.sizeT ≤ c.sizeofBlock) {s : State} {live : List Nat}
    (h : History c s live) {ops : List Op} (hp : ∀ op ∈ ops, ListProper y op) {as : List Answer} {q : List (List Pool.Byte)}
    (hs : listOf (c.numBlocks - live.length) ops [] = some (as, q)) (hr : Answer.badAlloc ∈ as) : run c y s [] ops = .ub .nullDeref :=
  ((ListInv.start h y).run hc hn ops hp hs).2 hx hr

/-- C142: in a program that is compiled nodes fit into blocks, since the `static_assert` is made for the type of the nodes too, which may be larger than header and element. -/
theorem C142_accepted {c : Cfg} (hc : c.WF) {y : Ty} {sizeofNode : Nat} (hs : y.header + y.sizeT ≤ sizeofNode) (ha : accepted c sizeofNode = true) :
    y.header + y.sizeT ≤ c.sizeofBlock := by
  have := of_decide_eq_true ha
  have := hc.sizes.1
  omega

/-- C142: what that `static_assert` is good for: with blocks that a node does not fit into, the first element would be written beyond its block. -/
theorem C142_small_block {c : Cfg} (hc : c.WF) {y : Ty} (hn : ¬ y.header + y.sizeT ≤ c.sizeofBlock) {s : State} {live : List Nat}
    (h : History c s live) (hroom : live.length < c.numBlocks) (e : List Pool.Byte) (he : e.length = y.sizeT) (k : Nat) (links : Nat → List Pool.Byte) :
    step c y s [] (.insert 0 e k links) = .ub .outOfBounds := by
  obtain ⟨p, s1, e1, -, p0, -⟩ := (Own.of_history h).alloc hc 1 k hc.blockSize_pos hroom
  simp only [step]
  rw [if_pos (Nat.zero_le _), e1]
  simp only [Outcome.ok_bind, reduceCtorEq, if_false, ptrOf]
  simp only [store, if_neg p0, he, if_neg hn]
  rfl

/-- Elements come and go, one at a time. -/
def comeAndGo (e : List Pool.Byte) (k : Nat) (links : Nat → List Pool.Byte) (n : Nat) : List Op := (List.replicate n [Op.insert 0 e k links, .get 0, .erase 0 links]).flatten

theorem comeAndGo_list (e : List Pool.Byte) (k : Nat) (links : Nat → List Pool.Byte) (m : Nat) (hm : 0 < m) (n : Nat) :
    listOf m (comeAndGo e k links n) [] = some ((List.replicate n [Answer.done, .value e, .done]).flatten, []) := by
  induction n with
  | zero => rfl
  | succ n ih =>
    show listOf m (.insert 0 e k links :: .get 0 :: .erase 0 links :: comeAndGo e k links n) [] = some (.done :: .value e :: .done :: (List.replicate n [Answer.done, .value e, .done]).flatten, [])
    rw [listOf, if_pos (Nat.zero_le _), if_pos (show ([] : List (List Pool.Byte)).length < m from hm)]
    show (listOf m (.get 0 :: .erase 0 links :: comeAndGo e k links n) [e]).map _ = _
    rw [listOf]
    simp only [List.getElem?_cons_zero]
    rw [listOf, if_pos (show 0 < [e].length from Nat.zero_lt_succ _)]
    show (((listOf m (comeAndGo e k links n) []).map _).map _).map _ = _
    rw [ih]
    rfl

/-- C142: where a `std::deque` comes to its end after at most 256 elements (C135), a `std::list` goes on with a single block for ever. -/
theorem C142_for_ever {c : Cfg} (hc : c.WF) {y : Ty} (hn : y.header + y.sizeT ≤ c.sizeofBlock) {s : State} {live : List Nat} (h : History c s live) (hroom : live.length < c.numBlocks)
    (e : List Pool.Byte) (he : e.length = y.sizeT) (k : Nat) (links : Nat → List Pool.Byte) (hl : ∀ a, (links a).length = y.header) (n : Nat) :
    ∃ s' nodes, run c y s [] (comeAndGo e k links n) = .ok ((List.replicate n [Answer.done, .value e, .done]).flatten, s', nodes) := by
  obtain ⟨s', nodes, -, e1, -⟩ := C142_list hc hn h (ops := comeAndGo e k links n) (by
    intro op hop
    simp only [comeAndGo, List.mem_flatten, List.mem_replicate] at hop
    obtain ⟨l, ⟨-, rfl⟩, hop⟩ := hop
    simp only [List.mem_cons, List.not_mem_nil, or_false] at hop
    rcases hop with rfl | rfl | rfl
    · exact ⟨he, hl⟩
    · exact trivial
    · exact hl) (comeAndGo_list e k links _ (by omega) n) (.inr (by simp))
  exact ⟨s', nodes, e1⟩

/-- C142: two blocks left on a 64-bit PC: the third element is refused, and there is room again after one has been taken out. -/
example {s : State} {a : Nat} (h : History (lp64 3 128 0x1000 true) s [a]) (sp : Nat) (e f g : List Pool.Byte) (he : e.length = 100) (hf : f.length = 100) (hg : g.length = 100) :
    ∃ s' nodes, run (lp64 3 128 0x1000 true) ⟨16, 100⟩ s []
      [.insert 0 e sp (fun _ => List.replicate 16 0), .insert 1 f sp (fun _ => List.replicate 16 0), .insert 0 g sp (fun _ => List.replicate 16 0), .erase 0 (fun _ => List.replicate 16 0),
        .insert 0 g sp (fun _ => List.replicate 16 0), .get 0, .get 1] = .ok ([.done, .done, .badAlloc, .done, .done, .value g, .value f], s', nodes) := by
  have hc : (lp64 3 128 0x1000 true).WF := ⟨by decide, by decide, by decide, by decide, by decide, by decide, by decide, by decide⟩
  obtain ⟨s', nodes, -, e1, -⟩ := C142_list hc (y := ⟨16, 100⟩) (by decide) h (ops := [.insert 0 e sp (fun _ => List.replicate 16 0), .insert 1 f sp (fun _ => List.replicate 16 0),
      .insert 0 g sp (fun _ => List.replicate 16 0), .erase 0 (fun _ => List.replicate 16 0), .insert 0 g sp (fun _ => List.replicate 16 0), .get 0, .get 1]) (by
    intro op hop
    simp only [List.mem_cons, List.not_mem_nil, or_false] at hop
    rcases hop with rfl | rfl | rfl | rfl | rfl | rfl | rfl
    · exact ⟨he, fun _ => rfl⟩
    · exact ⟨hf, fun _ => rfl⟩
    · exact ⟨hg, fun _ => rfl⟩
    · exact fun _ => rfl
    · exact ⟨hg, fun _ => rfl⟩
    all_goals exact trivial) (as := [.done, .done, .badAlloc, .done, .done, .value g, .value f]) (q := [g, f]) rfl (.inl rfl)
  exact ⟨s', nodes, e1⟩

end Uavcan.PoolList
