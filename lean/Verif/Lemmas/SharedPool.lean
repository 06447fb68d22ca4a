import Verif.Spec.SharedPool

/-!
# Several containers on one pool: the invariant
-/

namespace Uavcan.Stl
open Uavcan.Pool

/-- The blocks a container holds. -/
def Box.blocks : Box → List Nat
  | .vec _ v => v.blocks
  | .map _ m => m.arrayBlocks ++ m.nodes
  | .gone => []

/-- The blocks all of them hold. -/
def blocksOf (bs : List Box) : List Nat := bs.flatMap Box.blocks

/-- A container's part of the invariant. -/
def Box.Good (c : Cfg) (mem : Mem) : Box → Ideal → Prop
  | .vec ty v, .vec ty' l cap => ty = ty' ∧ (c.blockSize * ty.sizeT ≤ c.sizeofBlock ∧ GrowOK ty.grow) ∧ v.cap = cap ∧
      v.cap ≤ c.blockSize ∧ v.size ≤ v.cap ∧ (v.start = 0 ↔ v.cap = 0) ∧ l.length = v.size ∧ (∀ e ∈ l, e.length = ty.sizeT) ∧
      readBytes mem v.start (v.size * ty.sizeT) = l.flatten
  | .map ty m, .map ty' kv b array => ty = ty' ∧ c.ptrSize + ty.sizeK + ty.sizeV ≤ c.sizeofBlock ∧ m.bucketCount = b ∧ m.hasArray = array ∧
      m.contents c ty mem = kv ∧ (kv.map (·.1)).Nodup
  | .gone, .gone => True
  | _, _ => False

theorem Box.Good.blocks_length {c : Cfg} {mem : Mem} {b : Box} {i : Ideal} (h : b.Good c mem i) : b.blocks.length = i.used := by
  cases b with
  | vec ty v => cases i with
    | vec ty' l cap =>
      obtain ⟨-, -, h1, -, -, h2, -⟩ := h
      simp only [Box.blocks, Ideal.used, Vec.blocks, ← h1, h2]
      split <;> simp_all
    | map => exact h.elim
    | gone => exact h.elim
  | map ty m => cases i with
    | vec => exact h.elim
    | map ty' kv b array =>
      obtain ⟨-, -, -, h1, h2, -⟩ := h
      simp only [Box.blocks, Ideal.used, List.length_append, Map.arrayBlocks_length, h1, ← h2, Map.contents, List.length_map]
      omega
    | gone => exact h.elim
  | gone => cases i with
    | vec => exact h.elim
    | map => exact h.elim
    | gone => rfl

/-- It depends on the container's own blocks only. -/
theorem Box.Good.congr {c : Cfg} {mem mem' : Mem} {b : Box} {i : Ideal} (h : b.Good c mem i)
    (hm : ∀ a ∈ b.blocks, ∀ x, a ≤ x → x < a + c.sizeofBlock → mem' x = mem x) : b.Good c mem' i := by
  cases b with
  | vec ty v => cases i with
    | vec ty' l cap =>
      obtain ⟨h1, h2, h3, h4, h5, h6, h7, h8, h9⟩ := h
      refine ⟨h1, h2, h3, h4, h5, h6, h7, h8, ?_⟩
      rw [← h9]
      by_cases h0 : v.start = 0
      · have : v.size = 0 := by have := h6.1 h0; omega
        simp [this, readBytes]
      · refine readBytes_congr fun x hx1 hx2 => hm v.start (by simp [Box.blocks, Vec.blocks, h0]) x hx1 ?_
        have := Nat.mul_le_mul_right ty.sizeT (Nat.le_trans h5 h4)
        omega
    | map => exact h.elim
    | gone => exact h.elim
  | map ty m => cases i with
    | vec => exact h.elim
    | map ty' kv b array =>
      obtain ⟨h1, h2, h3, h4, h5, h6⟩ := h
      refine ⟨h1, h2, h3, h4, ?_, h6⟩
      rw [← h5]
      exact contents_congr h2 fun a ha => hm a (by simp [Box.blocks, ha])
    | gone => exact h.elim
  | gone => cases i with
    | vec => exact h.elim
    | map => exact h.elim
    | gone => trivial

theorem Box.Good.holds {c : Cfg} {s : State} {b : Box} {i : Ideal} (h : b.Good c s.mem i) : b.holds c s i := by
  cases b with
  | vec ty v => cases i with
    | vec ty' l cap =>
      obtain ⟨h1, h2, h3, h4, h5, h6, h7, h8, h9⟩ := h
      refine ⟨h1, ?_, h3⟩
      refine List.ext_getElem (by simp [Vec.elements, h7]) ?_
      intro i h1 h2
      simp only [Vec.elements, List.getElem_map, List.getElem_range]
      exact readBytes_element l v.start h8 (by rw [h7]; exact h9) i h2
    | map => exact h.elim
    | gone => exact h.elim
  | map ty m => cases i with
    | vec => exact h.elim
    | map ty' kv b array =>
      obtain ⟨h1, h2, h3, h4, h5, h6⟩ := h
      exact ⟨h1, h5, h3, h4⟩
    | gone => exact h.elim
  | gone => cases i with
    | vec => exact h.elim
    | map => exact h.elim
    | gone => trivial

/-- The invariant of the program. `live` are the blocks of other users of the pool, which were as in `mem0`. -/
structure SysInv (c : Cfg) (live : List Nat) (mem0 : Mem) (s : State) (bs : List Box) (is : List Ideal) : Prop where
  own : Own c s (blocksOf bs ++ live)
  frame : Frame c live mem0 s.mem
  len : bs.length = is.length
  good : ∀ (i : Nat) b a, bs[i]? = some b → is[i]? = some a → b.Good c s.mem a

theorem blocksOf_take (bs : List Box) : ∀ (i : Nat) (b : Box), bs[i]? = some b → (blocksOf bs).Perm (b.blocks ++ blocksOf (bs.set i .gone)) := by
  induction bs with
  | nil => intro i b h; simp at h
  | cons x bs ih =>
    intro i b h
    cases i with
    | zero =>
      simp only [List.getElem?_cons_zero, Option.some.injEq] at h
      subst h
      simp [blocksOf, Box.blocks]
    | succ i =>
      simp only [List.getElem?_cons_succ] at h
      have := ih i b h
      simp only [blocksOf, List.set_cons_succ, List.flatMap_cons] at this ⊢
      refine (this.append_left x.blocks).trans ?_
      rw [← List.append_assoc, ← List.append_assoc]
      exact List.perm_append_comm.append_right _

theorem blocksOf_put {bs : List Box} {i : Nat} (hi : i < bs.length) (b : Box) :
    (blocksOf (bs.set i b)).Perm (b.blocks ++ blocksOf (bs.set i .gone)) := by
  have := blocksOf_take (bs.set i b) i b (by simp [hi])
  rwa [List.set_set] at this

theorem blocksOf_length {bs : List Box} {is : List Ideal} {c : Cfg} {mem : Mem} (hl : bs.length = is.length)
    (hg : ∀ (i : Nat) b a, bs[i]? = some b → is[i]? = some a → b.Good c mem a) : (blocksOf bs).length = usedAll is := by
  induction bs generalizing is with
  | nil => cases is with
    | nil => rfl
    | cons => simp at hl
  | cons b bs ih => cases is with
    | nil => simp at hl
    | cons a is =>
      have h0 := (hg 0 b a rfl rfl).blocks_length
      have h1 := ih (is := is) (by simpa using hl) (fun i => hg (i + 1))
      simp only [blocksOf, List.flatMap_cons, List.length_append, usedAll, List.map_cons, List.sum_cons] at h1 ⊢
      omega

theorem SysInv.others_length {c : Cfg} {live : List Nat} {mem0 : Mem} {s : State} {bs : List Box} {is : List Ideal}
    (h : SysInv c live mem0 s bs is) (i : Nat) : (blocksOf (bs.set i .gone)).length = usedAll (is.set i .gone) := by
  refine blocksOf_length (c := c) (mem := s.mem) (by simp [h.len]) ?_
  intro j b a hb ha
  rw [List.getElem?_set] at hb ha
  by_cases e : i = j
  · rw [if_pos e] at hb ha
    split at hb
    · split at ha
      · cases hb; cases ha; trivial
      · cases ha
    · cases hb
  · rw [if_neg e] at hb ha
    exact h.good j b a hb ha

/-- What the others leave to a container. -/
theorem SysInv.left_eq {c : Cfg} {live : List Nat} {mem0 : Mem} {s : State} {bs : List Box} {is : List Ideal}
    (h : SysInv c live mem0 s bs is) (i : Nat) :
    left (c.numBlocks - live.length) is i = c.numBlocks - (blocksOf (bs.set i .gone) ++ live).length := by
  rw [left, List.length_append, h.others_length i]
  omega

/-- The others' containers and the other users keep what they have: what is to be shown about a call is about its own container. -/
theorem SysInv.update {c : Cfg} {live : List Nat} {mem0 : Mem} {s s' : State} {bs : List Box} {is : List Ideal}
    (h : SysInv c live mem0 s bs is) {i : Nat} (hi : i < bs.length) {b : Box} {a : Ideal}
    (hown : Own c s' (b.blocks ++ (blocksOf (bs.set i .gone) ++ live))) (hframe : Frame c (blocksOf (bs.set i .gone) ++ live) s.mem s'.mem)
    (hgood : b.Good c s'.mem a) : SysInv c live mem0 s' (bs.set i b) (is.set i a) where
  own := by
    refine hown.perm ?_
    rw [← List.append_assoc]
    exact (blocksOf_put hi b).symm.append_right live
  frame := by
    intro x hx y hy1 hy2
    rw [hframe x (by simp [hx]) y hy1 hy2]
    exact h.frame x hx y hy1 hy2
  len := by simp [h.len]
  good := by
    intro j b' a' hb ha
    rw [List.getElem?_set] at hb ha
    by_cases e : i = j
    · rw [if_pos e, if_pos hi] at hb
      rw [if_pos e, if_pos (by rw [← h.len]; exact hi)] at ha
      cases hb; cases ha; exact hgood
    · rw [if_neg e] at hb ha
      refine (h.good j b' a' hb ha).congr ?_
      intro x hx y hy1 hy2
      refine hframe x ?_ y hy1 hy2
      refine List.mem_append_left _ (List.mem_flatMap.2 ⟨b', ?_, hx⟩)
      refine List.mem_iff_getElem?.2 ⟨j, ?_⟩
      rw [List.getElem?_set, if_neg e]
      exact hb

theorem SysInv.vec {c : Cfg} {live : List Nat} {mem0 : Mem} {s : State} {bs : List Box} {is : List Ideal}
    (h : SysInv c live mem0 s bs is) {i : Nat} {ty ty' : VecTy} {v : Vec} {l : List (List Byte)} {cap : Nat}
    (hb : bs[i]? = some (.vec ty v)) (ha : is[i]? = some (.vec ty' l cap)) :
    ty = ty' ∧ v.cap = cap ∧ (c.blockSize * ty.sizeT ≤ c.sizeofBlock ∧ GrowOK ty.grow) ∧
      VecInv c ty.sizeT (blocksOf (bs.set i .gone) ++ live) s.mem s v l := by
  obtain ⟨h1, h2, h3, h4, h5, h6, h7, h8, h9⟩ := h.good i _ _ hb ha
  refine ⟨h1, h3, h2, ?_, fun _ _ _ _ _ => rfl, h4, h5, h6.1, h6.2, h7, h8, h9⟩
  refine h.own.perm ?_
  rw [← List.append_assoc]
  exact (blocksOf_take bs i _ hb).append_right live

theorem SysInv.map {c : Cfg} {live : List Nat} {mem0 : Mem} {s : State} {bs : List Box} {is : List Ideal}
    (h : SysInv c live mem0 s bs is) {i : Nat} {ty ty' : MapTy} {m : Map} {kv : KV} {b : Nat} {array : Bool}
    (hb : bs[i]? = some (.map ty m)) (ha : is[i]? = some (.map ty' kv b array)) :
    ty = ty' ∧ m.bucketCount = b ∧ m.hasArray = array ∧ c.ptrSize + ty.sizeK + ty.sizeV ≤ c.sizeofBlock ∧
      MapInv c ty (blocksOf (bs.set i .gone) ++ live) s.mem s m kv := by
  obtain ⟨h1, h2, h3, h4, h5, h6⟩ := h.good i _ _ hb ha
  refine ⟨h1, h3, h4, h2, ?_, fun _ _ _ _ _ => rfl, h5, h6⟩
  refine h.own.perm ?_
  rw [← List.append_assoc, ← List.append_assoc]
  exact (blocksOf_take bs i _ hb).append_right live

/-- The two lists have the same kinds of container. -/
theorem SysInv.kind {c : Cfg} {live : List Nat} {mem0 : Mem} {s : State} {bs : List Box} {is : List Ideal}
    (h : SysInv c live mem0 s bs is) (i : Nat) :
    (bs[i]? = none ∧ is[i]? = none) ∨ ∃ b a, bs[i]? = some b ∧ is[i]? = some a ∧ b.Good c s.mem a := by
  cases hb : bs[i]? with
  | none =>
    left
    rw [List.getElem?_eq_none_iff] at hb
    rw [List.getElem?_eq_none_iff]
    refine ⟨rfl, ?_⟩
    rw [← h.len]; exact hb
  | some b =>
    right
    cases ha : is[i]? with
    | none =>
      rw [List.getElem?_eq_none_iff, ← h.len, ← List.getElem?_eq_none_iff] at ha
      rw [ha] at hb; cases hb
    | some a => exact ⟨b, a, rfl, rfl, h.good i b a hb ha⟩

theorem vecRefused_false {grow : Nat → Nat → Nat} {max free size cap : Nat} {op : VecOp} (h : vecRefused grow max free size cap op = false) (n : Nat)
    (hn : newCapacity grow max size cap op = some n) : n = 0 ∨ (if cap = 0 then 0 else 1) < free := by
  simp only [vecRefused, hn, Bool.not_eq_eq_eq_not, Bool.not_false, decide_eq_true_eq] at h
  exact h

theorem scarceVecStep_free {grow : Nat → Nat → Nat} {max free : Nat} {l : List (List Byte)} {cap : Nat} {op : VecOp}
    (h : vecRefused grow max free l.length cap op = false) :
    scarceVecStep grow max free l cap op =
      (idealVecStep max l op >>= fun r => .ok (r.1, r.2, (newCapacity grow max l.length cap op).getD cap)) := by
  simp only [scarceVecStep]
  cases hn : newCapacity grow max l.length cap op with
  | none => rfl
  | some n => simp only; rw [if_pos (vecRefused_false h n hn)]; rfl

/-- A call on a vector, with all cases. -/
theorem VecInv.step_ideal {c : Cfg} (hc : c.WF) {ty : VecTy} (hg : GrowOK ty.grow) (hroom : c.blockSize * ty.sizeT ≤ c.sizeofBlock)
    {live : List Nat} {mem0 : Mem} {s : State} {v : Vec} {l : List (List Byte)}
    (h : VecInv c ty.sizeT live mem0 s v l) (op : VecOp) (hop : VecTyped ty.sizeT op) :
    match vecIdeal c ty (c.numBlocks - live.length) l v.cap op with
    | .ub u => c.exceptions = true → vecStep c ty s v op = .ub u
    | .ok (a, i) => ∃ s' v' l', vecStep c ty s v op = .ok (a, s', v') ∧ VecInv c ty.sizeT live mem0 s' v' l' ∧ i = .vec ty l' v'.cap := by
  simp only [vecIdeal]
  by_cases hx : c.exceptions = true
  · rw [if_neg (by simp [hx])]
    have := h.step_scarce hc hg hroom hx op hop
    cases e : scarceVecStep ty.grow c.blockSize (c.numBlocks - live.length) l v.cap op with
    | ub u => rw [e] at this; exact fun _ => this
    | ok r =>
      obtain ⟨a, l', cap⟩ := r
      rw [e] at this
      obtain ⟨s', v', e1, e2, e3⟩ := this
      exact ⟨s', v', l', e1, e2, by rw [e3]⟩
  · by_cases hr : vecRefused ty.grow c.blockSize (c.numBlocks - live.length) l.length v.cap op = true
    · rw [if_pos ⟨hr, by simpa using hx⟩]
      exact fun h => absurd h hx
    · rw [if_neg (by simp [hr])]
      have hr : vecRefused ty.grow c.blockSize (c.numBlocks - live.length) l.length v.cap op = false := by simpa using hr
      rw [scarceVecStep_free hr]
      have hbl := h.blocks_length
      have hle := h.own.length_le hc
      have := h.step hc hg hroom op hop (by
        intro n hn
        rcases vecRefused_false hr n hn with h0 | h0
        · exact .inl h0
        · right; rw [List.length_append, hbl]; omega)
      cases e : idealVecStep c.blockSize l op with
      | ub u => exact fun h => absurd h hx
      | ok r =>
        obtain ⟨a, l'⟩ := r
        rw [e] at this
        obtain ⟨s', v', e1, e2, e3⟩ := this
        exact ⟨s', v', l', e1, e2, by rw [e3]⟩

/-- A call on a map, with all cases. -/
theorem MapInv.step_ideal {c : Cfg} (hc : c.WF) {ty : MapTy} (hnode : c.ptrSize + ty.sizeK + ty.sizeV ≤ c.sizeofBlock)
    {live : List Nat} {mem0 : Mem} {s : State} {m : Map} {kv : KV} (h : MapInv c ty live mem0 s m kv) (op : MapOp) (hop : MapTyped ty op) :
    match mapIdeal c ty (c.numBlocks - live.length) kv m.bucketCount m.hasArray op with
    | .ub u => mapStep c ty s m op = .ub u
    | .ok (a, i) => ∃ s' m' kv', mapStep c ty s m op = .ok (a, s', m') ∧ MapInv c ty live mem0 s' m' kv' ∧
        i = .map ty kv' m'.bucketCount m'.hasArray := by
  simp only [mapIdeal]
  by_cases hno : makesNew kv op = true ∧ ¬ Fits (granted c) ty (c.numBlocks - live.length) kv.length m.bucketCount m.hasArray
  · rw [if_pos hno]
    have hs := h.step_refused hc hnode op hop hno.1 hno.2
    cases hx : c.exceptions
    · simp only [hx, Bool.false_eq_true, if_false] at hs ⊢
      exact hs
    · simp only [hx, if_true] at hs ⊢
      obtain ⟨s2, e2, i2⟩ := hs
      exact ⟨s2, m, kv, e2, i2, rfl⟩
  · rw [if_neg hno]
    have hgr : makesNew kv op = true → Fits (granted c) ty (c.numBlocks - live.length) kv.length m.bucketCount m.hasArray := fun hnew =>
      Decidable.byContradiction fun hf => hno ⟨hnew, hf⟩
    by_cases htr : makesNew kv op = true ∧ ¬ Fits (roomy c) ty (c.numBlocks - live.length) kv.length m.bucketCount m.hasArray
    · rw [if_pos htr]
      exact h.step_trap hc hnode op hop htr.1 (hgr htr.1) htr.2
    · rw [if_neg htr]
      obtain ⟨s2, m2, e2, i2, b2, r2⟩ := h.step_ok hc hnode op hop (fun hnew =>
        Decidable.byContradiction fun hf => htr ⟨hnew, hf⟩)
      exact ⟨s2, m2, _, e2, i2, by rw [b2, r2]⟩

theorem VecInv.good {c : Cfg} {ty : VecTy} {live : List Nat} {mem0 : Mem} {s : State} {v : Vec} {l : List (List Byte)}
    (h : VecInv c ty.sizeT live mem0 s v l) (ht : c.blockSize * ty.sizeT ≤ c.sizeofBlock ∧ GrowOK ty.grow) :
    (Box.vec ty v).Good c s.mem (.vec ty l v.cap) :=
  ⟨rfl, ht, rfl, h.cap_le, h.size_le, ⟨h.start_cap, h.cap_start⟩, h.len, h.elems, h.bytes⟩

theorem MapInv.good {c : Cfg} {ty : MapTy} {live : List Nat} {mem0 : Mem} {s : State} {m : Map} {kv : KV}
    (h : MapInv c ty live mem0 s m kv) (ht : c.ptrSize + ty.sizeK + ty.sizeV ≤ c.sizeofBlock) :
    (Box.map ty m).Good c s.mem (.map ty kv m.bucketCount m.hasArray) :=
  ⟨rfl, ht, rfl, rfl, h.contents, h.keys⟩

theorem SysInv.new {c : Cfg} {live : List Nat} {mem0 : Mem} {s : State} {bs : List Box} {is : List Ideal}
    (h : SysInv c live mem0 s bs is) {b : Box} {a : Ideal} (hb : b.blocks = []) (hg : b.Good c s.mem a) :
    SysInv c live mem0 s (bs ++ [b]) (is ++ [a]) where
  own := by simpa [blocksOf, hb] using h.own
  frame := h.frame
  len := by simp [h.len]
  good := by
    intro j b' a' h1 h2
    rw [List.getElem?_append] at h1 h2
    rw [h.len] at h1
    split at h1
    · next hj =>
      rw [if_pos hj] at h2
      exact h.good j b' a' h1 h2
    · next hj =>
      rw [if_neg hj] at h2
      cases hk : j - is.length with
      | zero =>
        rw [hk] at h1 h2
        simp only [List.getElem?_cons_zero, Option.some.injEq] at h1 h2
        rw [← h1, ← h2]; exact hg
      | succ k => rw [hk] at h1; simp at h1

/-- Every call. -/
theorem SysInv.step {c : Cfg} (hc : c.WF) {live : List Nat} {mem0 : Mem} {s : State} {bs : List Box} {is : List Ideal}
    (h : SysInv c live mem0 s bs is) (call : Call) (ht : call.TypeOk c) (hty : call.Typed is) :
    match idealStep c (c.numBlocks - live.length) is call with
    | .ub u => c.exceptions = true → callStep c s bs call = .ub u
    | .ok (a, is') => ∃ s' bs', callStep c s bs call = .ok (a, s', bs') ∧ SysInv c live mem0 s' bs' is' := by
  cases call with
  | newVec ty =>
    exact ⟨s, _, rfl, h.new rfl ⟨rfl, ht, rfl, Nat.zero_le _, Nat.le_refl _, by simp [Vec.empty], rfl, by simp, by simp [Vec.empty, readBytes]⟩⟩
  | newMap ty =>
    exact ⟨s, _, rfl, h.new rfl ⟨rfl, ht, rfl, rfl, rfl, by simp⟩⟩
  | vec i op =>
    simp only [idealStep, callStep]
    rcases h.kind i with ⟨hb, ha⟩ | ⟨b, a, hb, ha, hg⟩
    · rw [hb, ha]; exact ⟨s, bs, rfl, h⟩
    · have hi : i < bs.length := (List.getElem?_eq_some_iff.1 hb).1
      cases b with
      | vec ty v => cases a with
        | vec ty' l cap =>
          obtain ⟨rfl, rfl, ht, hv⟩ := h.vec hb ha
          have := hv.step_ideal hc ht.2 ht.1 op (hty ty l v.cap ha)
          rw [hb, ha]
          simp only [h.left_eq]
          cases e : vecIdeal c ty (c.numBlocks - (blocksOf (bs.set i .gone) ++ live).length) l v.cap op with
          | ub u => rw [e] at this; exact fun hx => by rw [this hx]; rfl
          | ok r =>
            obtain ⟨x, j⟩ := r
            rw [e] at this
            obtain ⟨s', v', l', e1, e2, rfl⟩ := this
            exact ⟨s', _, by rw [e1]; rfl, h.update (b := .vec ty v') hi e2.own e2.frame (e2.good ht)⟩
        | map => exact hg.elim
        | gone => exact hg.elim
      | map ty m => cases a with
        | map ty' kv k array => rw [hb, ha]; exact ⟨s, bs, rfl, h⟩
        | vec => exact hg.elim
        | gone => exact hg.elim
      | gone => cases a with
        | gone => rw [hb, ha]; exact ⟨s, bs, rfl, h⟩
        | vec => exact hg.elim
        | map => exact hg.elim
  | map i op =>
    simp only [idealStep, callStep]
    rcases h.kind i with ⟨hb, ha⟩ | ⟨b, a, hb, ha, hg⟩
    · rw [hb, ha]; exact ⟨s, bs, rfl, h⟩
    · have hi : i < bs.length := (List.getElem?_eq_some_iff.1 hb).1
      cases b with
      | vec ty v => cases a with
        | vec ty' l cap => rw [hb, ha]; exact ⟨s, bs, rfl, h⟩
        | map => exact hg.elim
        | gone => exact hg.elim
      | map ty m => cases a with
        | map ty' kv k array =>
          obtain ⟨rfl, rfl, rfl, ht, hv⟩ := h.map hb ha
          have := hv.step_ideal hc ht op (hty ty kv _ _ ha)
          rw [hb, ha]
          simp only [h.left_eq]
          cases e : mapIdeal c ty (c.numBlocks - (blocksOf (bs.set i .gone) ++ live).length) kv m.bucketCount m.hasArray op with
          | ub u => rw [e] at this; exact fun _ => by rw [this]; rfl
          | ok r =>
            obtain ⟨x, j⟩ := r
            rw [e] at this
            obtain ⟨s', m', kv', e1, e2, rfl⟩ := this
            refine ⟨s', _, by rw [e1]; rfl, h.update (b := .map ty m') hi ?_ e2.frame (e2.good ht)⟩
            have := e2.own
            rwa [← List.append_assoc] at this
        | vec => exact hg.elim
        | gone => exact hg.elim
      | gone => cases a with
        | gone => rw [hb, ha]; exact ⟨s, bs, rfl, h⟩
        | vec => exact hg.elim
        | map => exact hg.elim
  | destroy i =>
    simp only [idealStep, callStep]
    rcases h.kind i with ⟨hb, ha⟩ | ⟨b, a, hb, ha, hg⟩
    · rw [hb, ha]; exact ⟨s, bs, rfl, h⟩
    · have hi : i < bs.length := (List.getElem?_eq_some_iff.1 hb).1
      cases b with
      | vec ty v => cases a with
        | vec ty' l cap =>
          obtain ⟨rfl, rfl, ht, hv⟩ := h.vec hb ha
          obtain ⟨r, s', e1, e2, e3⟩ := Own.dealloc_vec hc hv.own
          rw [hb, ha]
          exact ⟨s', _, by simp only [vecDestroy, e1]; rfl, h.update (b := .gone) hi (by simpa [Box.blocks] using e2) e3 trivial⟩
        | map => exact hg.elim
        | gone => exact hg.elim
      | map ty m => cases a with
        | map ty' kv k array =>
          obtain ⟨rfl, rfl, rfl, ht, hv⟩ := h.map hb ha
          obtain ⟨s', e1, e2, e3⟩ := hv.destroy hc
          rw [hb, ha]
          exact ⟨s', _, by simp only [e1]; rfl, h.update (b := .gone) hi (by simpa [Box.blocks] using e2) e3 trivial⟩
        | vec => exact hg.elim
        | gone => exact hg.elim
      | gone => cases a with
        | gone => rw [hb, ha]; exact ⟨s, bs, rfl, h⟩
        | vec => exact hg.elim
        | map => exact hg.elim

/-- Every program. -/
theorem SysInv.run {c : Cfg} (hc : c.WF) {live : List Nat} {mem0 : Mem} (calls : List Call) : ∀ {s : State} {bs : List Box} {is : List Ideal},
    SysInv c live mem0 s bs is → ProgramOk c (c.numBlocks - live.length) is calls →
    match idealRun c (c.numBlocks - live.length) is calls with
    | .ub u => c.exceptions = true → callRun c s bs calls = .ub u
    | .ok (as, is') => ∃ s' bs', callRun c s bs calls = .ok (as, s', bs') ∧ SysInv c live mem0 s' bs' is' := by
  induction calls with
  | nil => intro s bs is h _; exact ⟨s, bs, rfl, h⟩
  | cons call calls ih =>
    intro s bs is h ⟨h1, h2, h3⟩
    have hs := h.step hc call h1 h2
    simp only [idealRun, callRun]
    cases e : idealStep c (c.numBlocks - live.length) is call with
    | ub u => rw [e] at hs; exact fun hx => by rw [hs hx]; rfl
    | ok r =>
      obtain ⟨a, is'⟩ := r
      rw [e] at hs
      obtain ⟨s', bs', e1, e2⟩ := hs
      have hr := ih e2 (h3 a is' e)
      rw [e1]
      simp only [Outcome.ok_bind]
      cases e3 : idealRun c (c.numBlocks - live.length) is' calls with
      | ub u => rw [e3] at hr; exact fun hx => by rw [hr hx]; rfl
      | ok r =>
        obtain ⟨as, is''⟩ := r
        rw [e3] at hr
        obtain ⟨s'', bs'', e4, e5⟩ := hr
        exact ⟨s'', bs'', by rw [e4]; rfl, e5⟩

end Uavcan.Stl
