import Verif.Lemmas.PoolQueue
import Verif.Props.TxQueue

/-!
# C134: a transmit queue on the pool allocator
-/

namespace Uavcan.PoolQueue
open Uavcan.Pool Uavcan.Stl Uavcan.Spec Uavcan.Can

variable {mtu : Nat}

/-! ## C134 -/

/-- C134: a `std::multiset` of frames on the pool allocator, with blocks a node fits into and with exceptions (or as long as no frame is refused), is the queue wanted with room for as many frames as the pool has blocks
left: it refuses a frame exactly if it holds that many, sends what the bus would take, first come first served, holds each identifier's frames in order,
keeps off other users' blocks, and has exactly one block for each frame that waits. -/
theorem C134_queue {c : Cfg} (hc : c.WF) {y : Layout mtu} (hy : GoodLayout y) (hn : y.header + y.size ≤ c.sizeofBlock)
    {s : State} {live : List Nat} (h : History c s live) (ops : List (Op mtu)) (hp : ∀ op ∈ ops, Proper y op)
    (hx : c.exceptions = true ∨ Ans.refused ∉ (bounded (c.numBlocks - live.length) (ops.map Spec.PoolQueue.Op.wish) []).1) :
    ∃ s' t, run c y s .nil ops = .ok ((bounded (c.numBlocks - live.length) (ops.map Spec.PoolQueue.Op.wish) []).1, s', t) ∧
      (∀ i, (t.nodes.map fun a => y.dec (readBytes s'.mem (a + y.header) y.size)).filter (fun f => f.id.setWidth 29 == i) =
        (bounded (c.numBlocks - live.length) (ops.map Spec.PoolQueue.Op.wish) []).2.filter fun f => f.id.setWidth 29 == i) ∧
      Stl.Frame c live s.mem s'.mem ∧
      ∃ L, L.length = (bounded (c.numBlocks - live.length) (ops.map Spec.PoolQueue.Op.wish) []).2.length ∧ Own c s' (L ++ live) := by
  have h0 : Inv c y live s.mem s .nil [] := ⟨Own.of_history h, fun _ _ _ _ _ => rfl, .empty⟩
  obtain ⟨s', t, e, i⟩ := (Inv.run hc hy hn ops h0 hp).1 hx
  refine ⟨s', t, e, fun k => ?_, i.frame, t.nodes, ?_, i.own⟩
  · have hkey : (fun g : Can.Frame mtu => g.id.setWidth 29 == k) = fun g => key g == k.toNat := by
      funext g
      rw [Bool.eq_iff_iff, beq_iff_eq, beq_iff_eq, ← BitVec.toNat_inj, BitVec.toNat_setWidth]
      exact Iff.rfl
    rw [hkey]
    exact i.sorted.same k.toNat
  · have := Sorted.length i.sorted
    simpa using this

/-- C134: when the queue is destroyed all of its blocks are free again, and other users' blocks have kept every byte. -/
theorem C134_destroyed {c : Cfg} (hc : c.WF) {y : Layout mtu} (hy : GoodLayout y) (hn : y.header + y.size ≤ c.sizeofBlock)
    {s : State} {live : List Nat} (h : History c s live) (ops : List (Op mtu)) (hp : ∀ op ∈ ops, Proper y op) {as : List (Ans mtu)} {s' : State} {t : Tree}
    (hr : run c y s .nil ops = .ok (as, s', t)) : ∃ s'', destroy c s' t = .ok s'' ∧ Own c s'' live ∧ Stl.Frame c live s.mem s''.mem := by
  have h0 : Inv c y live s.mem s .nil [] := ⟨Own.of_history h, fun _ _ _ _ _ => rfl, .empty⟩
  obtain ⟨r1, r2⟩ := Inv.run hc hy hn ops h0 hp
  have hx : c.exceptions = true ∨ Ans.refused ∉ (ideal c live ops []).1 := by
    cases hx : c.exceptions with
    | true => exact .inl rfl
    | false =>
      refine .inr fun hm => ?_
      have := r2 hx hm
      rw [hr] at this
      cases this
  obtain ⟨s1, t1, e, i⟩ := r1 hx
  rw [hr] at e
  cases e
  obtain ⟨s'', e1, o1, k1⟩ := deallocateAll_ok hc t.nodes s' i.own
  exact ⟨s'', e1, o1, fun b hb x h1 h2 => by rw [k1 b hb x h1 h2]; exact i.frame b hb x h1 h2⟩

theorem bounded_wanted (n : Nat) (ops : List (QOp mtu)) : ∀ (q : List (Can.Frame mtu)), q.length + (pushed ops).length ≤ n →
    sentOf (bounded n ops q).1 = (wanted false ops q).1 ∧ Ans.refused ∉ (bounded n ops q).1 := by
  induction ops with
  | nil => exact fun q _ => ⟨rfl, by simp [bounded]⟩
  | cons op ops ih =>
    intro q h
    cases op with
    | push f =>
      have hp : (pushed (QOp.push f :: ops)).length = (pushed ops).length + 1 := by simp [pushed]
      rw [hp] at h
      rw [bounded, if_pos (by omega), wanted]
      simp only [Bool.false_and, Bool.false_eq_true, if_false]
      obtain ⟨a, b⟩ := ih (q ++ [f]) (by rw [List.length_append, List.length_singleton]; omega)
      exact ⟨a, by simpa using b⟩
    | pop =>
      have hp : pushed (QOp.pop :: ops) = pushed ops := rfl
      rw [hp] at h
      rw [bounded, wanted]
      cases hw : (winners q).head? with
      | none =>
        obtain ⟨a, b⟩ := ih q h
        exact ⟨a, by simpa using b⟩
      | some f =>
        simp only
        have hl : (q.erase f).length ≤ q.length := List.length_erase_le
        obtain ⟨a, b⟩ := ih (q.erase f) (by omega)
        refine ⟨?_, by simpa using b⟩
        rw [← a]
        rfl

/-- C134: as long as the pool has a block for every frame queued, the queue sends exactly as the queue of C126, which has room for all; with exceptions and without. -/
theorem C134_as_wanted {c : Cfg} (hc : c.WF) {y : Layout mtu} (hy : GoodLayout y) (hn : y.header + y.size ≤ c.sizeofBlock)
    {s : State} {live : List Nat} (h : History c s live) (ops : List (Op mtu)) (hp : ∀ op ∈ ops, Proper y op)
    (hroom : (pushed (ops.map Spec.PoolQueue.Op.wish)).length ≤ c.numBlocks - live.length) :
    ∃ as s' t, run c y s .nil ops = .ok (as, s', t) ∧ sentOf as = (wanted false (ops.map Spec.PoolQueue.Op.wish) []).1 := by
  have hb := bounded_wanted _ _ [] (by simpa using hroom)
  obtain ⟨s', t, e, -⟩ := C134_queue hc hy hn h ops hp (.inr hb.2)
  exact ⟨_, s', t, e, hb.1⟩

/-- C134: without exceptions the first frame too many is undefined: the container writes to the null pointer that `allocate` returns. -/
theorem C134_without_exceptions {c : Cfg} (hc : c.WF) (hx : c.exceptions = false) {y : Layout mtu} (hy : GoodLayout y) (hn : y.header + y.size ≤ c.sizeofBlock)
    {s : State} {live : List Nat} (h : History c s live) (ops : List (Op mtu)) (hp : ∀ op ∈ ops, Proper y op)
    (hr : Ans.refused ∈ (bounded (c.numBlocks - live.length) (ops.map Spec.PoolQueue.Op.wish) []).1) : run c y s .nil ops = .ub .nullDeref := by
  have h0 : Inv c y live s.mem s .nil [] := ⟨Own.of_history h, fun _ _ _ _ _ => rfl, .empty⟩
  exact (Inv.run hc hy hn ops h0 hp).2 hx hr

/-- C134: in a program that is compiled nodes fit into blocks, since the `static_assert` is made for the type of the nodes too, which may be larger than header and frame. -/
theorem C134_accepted {c : Cfg} (hc : c.WF) {y : Layout mtu} {sizeofNode : Nat} (hs : y.header + y.size ≤ sizeofNode) (ha : accepted c sizeofNode = true) :
    y.header + y.size ≤ c.sizeofBlock := by
  have := of_decide_eq_true ha
  have := hc.sizes.1
  omega

/-- C134: what that `static_assert` is good for: with blocks that a node does not fit into, the first frame queued would be written beyond its block. -/
theorem C134_small_block {c : Cfg} (hc : c.WF) {y : Layout mtu} (hy : GoodLayout y) (hn : ¬ y.header + y.size ≤ c.sizeofBlock) {s : State} {live : List Nat}
    (h : History c s live) (hroom : live.length < c.numBlocks) (f : Can.Frame mtu) (k : Nat) (links : Nat → List Pool.Byte) (shape : Tree → Tree) :
    step c y s .nil (.push f k links shape) = .ub .outOfBounds := by
  obtain ⟨p, s1, e1, -, p0, -⟩ := (Own.of_history h).alloc hc 1 k hc.blockSize_pos hroom
  simp only [step]
  rw [e1]
  simp only [Outcome.ok_bind, reduceCtorEq, if_false, ptrOf]
  simp only [store, if_neg p0, hy.len, if_neg hn]
  rfl

/-! ## A layout -/

/-- `n` bytes of a number, little-endian. -/
def le : Nat → Nat → List Pool.Byte
  | 0, _ => []
  | n + 1, v => BitVec.ofNat 8 v :: le n (v / 256)

/-- The number that bytes are. -/
def leNum : List Pool.Byte → Nat
  | [] => 0
  | b :: l => b.toNat + 256 * leNum l

theorem le_length (n v : Nat) : (le n v).length = n := by
  induction n generalizing v with
  | zero => rfl
  | succ n ih => simp [le, ih]

theorem leNum_le (n v : Nat) (h : v < 256 ^ n) : leNum (le n v) = v := by
  induction n generalizing v with
  | zero => simp at h; subst h; rfl
  | succ n ih =>
    rw [le, leNum, ih _ (by rw [Nat.pow_succ] at h; omega), BitVec.toNat_ofNat]
    omega

/-- Identifier, data length code, time and data one after the other, behind a header of four words. -/
def plain (ptrSize mtu : Nat) : Layout mtu where
  header := 4 * ptrSize
  size := 13 + mtu
  enc f := le 4 f.id.toNat ++ (le 1 f.dlc ++ (le 8 f.timestamp.usec.toNat ++ f.data.toList))
  dec b := { id := BitVec.ofNat 32 (leNum (b.take 4)), dlc := leNum ((b.drop 4).take 1), timestamp := ⟨leNum ((b.drop 5).take 8)⟩,
             data := Vector.ofFn fun i => (b.drop 13).getD i.val 0 }

theorem plain_good (ptrSize mtu : Nat) : GoodLayout (plain ptrSize mtu) where
  len f := by
    simp only [plain, List.length_append, le_length, Vector.length_toList]
    omega
  dec_enc f h := by
    obtain ⟨h1, h2, h3⟩ := h
    obtain ⟨id, data, dlc, ⟨usec⟩⟩ := f
    simp only [plain] at *
    have e1 : ∀ (a b c d : List Pool.Byte), a.length = 4 → (a ++ (b ++ (c ++ d))).take 4 = a := fun a b c d h => by rw [← h, List.take_left]
    have e2 : ∀ (a b c d : List Pool.Byte), a.length = 4 → b.length = 1 → ((a ++ (b ++ (c ++ d))).drop 4).take 1 = b := fun a b c d h h' => by
      rw [← h, List.drop_left, ← h', List.take_left]
    have e3 : ∀ (a b c d : List Pool.Byte), a.length = 4 → b.length = 1 → c.length = 8 → ((a ++ (b ++ (c ++ d))).drop 5).take 8 = c := fun a b c d h h' h'' => by
      rw [show 5 = 4 + 1 from rfl, ← List.drop_drop, ← h, List.drop_left, ← h', List.drop_left, ← h'', List.take_left]
    have e4 : ∀ (a b c d : List Pool.Byte), a.length = 4 → b.length = 1 → c.length = 8 → (a ++ (b ++ (c ++ d))).drop 13 = d := fun a b c d h h' h'' => by
      rw [show 13 = 4 + (1 + 8) from rfl, ← List.drop_drop, ← List.drop_drop, ← h, List.drop_left, ← h', List.drop_left, ← h'', List.drop_left]
    rw [e1 _ _ _ _ (le_length _ _), e2 _ _ _ _ (le_length _ _) (le_length _ _), e3 _ _ _ _ (le_length _ _) (le_length _ _) (le_length _ _),
      e4 _ _ _ _ (le_length _ _) (le_length _ _) (le_length _ _), leNum_le 4 _ (by have := id.isLt; omega), leNum_le 1 _ (by omega), leNum_le 8 _ (by omega)]
    congr 1
    · simp
    · ext i hi
      simp
    · congr 1
      omega

/-- C134: three blocks of 128 bytes on a 64-bit PC, one of them in use elsewhere: the third frame is refused, the better of the two that wait is sent first. -/
example {s : State} {a : Nat} (h : History (lp64 3 128 0x1000 true) s [a]) (sp : Nat) (f g e : Can.Frame 64) (hf : Storable f) (hg : Storable g) (he : Storable e)
    (hfg : canId29 g.id < canId29 f.id) :
    ∃ s' t, run (lp64 3 128 0x1000 true) (plain 8 64) s .nil
      [.push f sp (fun _ => List.replicate 32 0) id, .push g sp (fun _ => List.replicate 32 0) id, .push e sp (fun _ => List.replicate 32 0) id,
        .pop (fun _ => List.replicate 32 0) id, .pop (fun _ => List.replicate 32 0) id, .pop (fun _ => List.replicate 32 0) id] =
      .ok ([.queued, .queued, .refused, .sent g, .sent f, .nothing], s', t) := by
  have hc : (lp64 3 128 0x1000 true).WF := ⟨by decide, by decide, by decide, by decide, by decide, by decide, by decide, by decide⟩
  obtain ⟨s', t, e1, -⟩ := C134_queue hc (plain_good 8 64) (by decide) h
    [.push f sp (fun _ => List.replicate 32 0) id, .push g sp (fun _ => List.replicate 32 0) id, .push e sp (fun _ => List.replicate 32 0) id,
      .pop (fun _ => List.replicate 32 0) id, .pop (fun _ => List.replicate 32 0) id, .pop (fun _ => List.replicate 32 0) id]
    (by
      intro op hop
      simp only [List.mem_cons, List.not_mem_nil, or_false] at hop
      rcases hop with rfl | rfl | rfl | rfl | rfl | rfl
      · exact ⟨hf, fun _ => rfl, fun _ => rfl⟩
      · exact ⟨hg, fun _ => rfl, fun _ => rfl⟩
      · exact ⟨he, fun _ => rfl, fun _ => rfl⟩
      all_goals exact ⟨fun _ => rfl, fun _ => rfl⟩) (.inl rfl)
  refine ⟨s', t, ?_⟩
  rw [e1]
  have hne : f ≠ g := fun e => by subst e; omega
  have w1 : (winners [f, g]).head? = some g := (head_winners _ _).2 ⟨by
    intro x hx
    simp only [List.mem_cons, List.not_mem_nil, or_false] at hx
    rcases hx with rfl | rfl
    · exact Nat.le_of_lt hfg
    · exact Nat.le_refl _, [], by
    have : ¬ canId29 f.id = canId29 g.id := by omega
    simp [key, this]⟩
  have w2 : (winners [f]).head? = some f := (head_winners _ _).2 ⟨by simp, [], by simp⟩
  have w3 : (winners ([] : List (Can.Frame 64))).head? = none := (winners_nil _).2 rfl
  have x1 : [f, g].erase g = [f] := by rw [List.erase_cons_tail (by simpa using hne)]; simp
  simp [bounded, Spec.PoolQueue.Op.wish, lp64, w1, w2, w3, x1]

end Uavcan.PoolQueue
