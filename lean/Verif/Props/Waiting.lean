import Verif.Spec.Waiting
import Verif.Props.Sender

/-!
# C141: how long a frame waits
-/

namespace Uavcan.SocketCan
open Spec Can

theorem qrun_split {mtu : Nat} {k : Kind} {ops ops' : List (QOp mtu)} {l out left : List (Frame mtu)} (h : QRun k (ops ++ ops') l out left) :
    ∃ out1 mid out2, QRun k ops l out1 mid ∧ QRun k ops' mid out2 left ∧ out = out1 ++ out2 := by
  induction ops generalizing l out with
  | nil => exact ⟨[], l, out, .done l, h, rfl⟩
  | cons op ops ih =>
    cases h with
    | push h =>
      obtain ⟨o1, m, o2, a, b, e⟩ := ih h
      exact ⟨o1, m, o2, .push a, b, e⟩
    | pop ht h =>
      obtain ⟨o1, m, o2, a, b, e⟩ := ih h
      exact ⟨_, m, o2, .pop ht a, b, by rw [e]; rfl⟩
    | empty h =>
      obtain ⟨o1, m, o2, a, b, e⟩ := ih h
      exact ⟨o1, m, o2, .empty a, b, e⟩

/-- A frame goes before all that have lower priority. -/
theorem insertUpper_before {mtu : Nat} (g f : Frame mtu) (hg : key g < key f) (b : List (Frame mtu)) : ∀ a : List (Frame mtu), (∀ x ∈ a, key x ≤ key f) →
    ∃ a', insertUpper g (a ++ f :: b) = a' ++ f :: b ∧ a'.length = a.length + 1 ∧ ∀ x ∈ a', key x ≤ key f := by
  intro a
  induction a with
  | nil =>
    intro _
    refine ⟨[g], ?_, rfl, fun x hx => ?_⟩
    · show (if g.gt f then _ else _) = _
      rw [if_pos ((gt_iff g f).2 hg)]
      rfl
    · rw [List.mem_singleton.1 hx]; omega
  | cons y a ih =>
    intro ha
    rw [List.cons_append, insertUpper]
    by_cases hy : g.gt y = true
    · rw [if_pos hy]
      refine ⟨g :: y :: a, rfl, rfl, fun x hx => ?_⟩
      rcases List.mem_cons.1 hx with rfl | hx
      · omega
      · exact ha x hx
    · rw [if_neg hy]
      obtain ⟨a', e, hl, hk⟩ := ih fun x hx => ha x (List.mem_cons_of_mem _ hx)
      refine ⟨y :: a', by rw [e]; rfl, by simp [hl], fun x hx => ?_⟩
      rcases List.mem_cons.1 hx with rfl | hx
      · exact ha _ (List.mem_cons_self ..)
      · exact hk x hx

/-- A frame goes behind all whose priority is not lower. -/
theorem insertUpper_after {mtu : Nat} (g : Frame mtu) (b : List (Frame mtu)) : ∀ a : List (Frame mtu), (∀ x ∈ a, key x ≤ key g) →
    insertUpper g (a ++ b) = a ++ insertUpper g b := by
  intro a
  induction a with
  | nil => intro _; rfl
  | cons y a ih =>
    intro ha
    rw [List.cons_append, insertUpper]
    have hy : g.gt y = false := (gt_false g y).2 (ha y (List.mem_cons_self ..))
    rw [hy, ih fun x hx => ha x (List.mem_cons_of_mem _ hx)]
    rfl

theorem insertUpper_ofId (i : BitVec 29) (g : FrameT) (b : List FrameT) : (ofId i (insertUpper g b)).length = (ofId i b).length + (ofId i [g]).length := by
  induction b with
  | nil => simp [insertUpper, ofId]
  | cons y b ih =>
    rw [insertUpper]
    split
    · simp only [ofId, List.filter_cons, List.filter_nil]
      split <;> split <;> simp
    · simp only [ofId, List.filter_cons, List.filter_nil] at ih ⊢
      split
      · simp only [List.length_cons, ih]; omega
      · exact ih

theorem ofId_cons (i : BitVec 29) (g : FrameT) (b : List FrameT) : (ofId i (g :: b)).length = (ofId i [g]).length + (ofId i b).length := by
  show (ofId i ([g] ++ b)).length = _
  simp only [ofId, List.filter_append, List.length_append]

/-- Nothing comes from nowhere, nothing is lost. -/
theorem qrun_total (i : BitVec 29) {ops : List (QOp 64)} {l out left : List FrameT} (h : QRun .multiset ops l out left) :
    (ofId i out).length + (ofId i left).length = (ofId i l).length + (ofId i (pushed ops)).length := by
  induction h with
  | done l => show 0 + _ = _ + 0; omega
  | @push f ops l out left _ ih =>
    have e := insertUpper_ofId i f l
    have : pushed (QOp.push f :: ops) = f :: pushed ops := rfl
    rw [this, ofId_cons]
    have ih : (ofId i out).length + (ofId i left).length = (ofId i (insertUpper f l)).length + (ofId i (pushed ops)).length := ih
    omega
  | @pop f ops l rest out left ht _ ih =>
    cases (show l = f :: rest from ht)
    have h1 := ofId_cons i f rest
    have h2 := ofId_cons i f out
    have : pushed (QOp.pop :: ops) = pushed ops := rfl
    rw [this]
    omega
  | empty _ ih => exact ih

theorem ofId_pushed (i : BitVec 29) (ops ops' : List (QOp 64)) (f : FrameT) :
    (ofId i (pushed (ops ++ .push f :: ops'))).length = (ofId i (pushed ops)).length + (ofId i [f]).length + (ofId i (pushed ops')).length := by
  have hp : pushed (ops ++ .push f :: ops') = pushed ops ++ ([f] ++ pushed ops') := by
    simp [pushed, List.filterMap_append]
  rw [hp]
  simp only [ofId, List.filter_append, List.length_append]
  omega

theorem hasTurn_iff {mtu : Nat} (f : Frame mtu) (n : Nat) (op : QOp mtu) (ops : List (QOp mtu)) :
    (∃ p, p <+: op :: ops ∧ n + higher f p < pops p) ↔
      match op with
      | .push g => ∃ p, p <+: ops ∧ (n + if key g < key f then 1 else 0) + higher f p < pops p
      | .pop => n = 0 ∨ ∃ p, p <+: ops ∧ n - 1 + higher f p < pops p := by
  cases op with
  | push g =>
    have e : ∀ p, higher f (QOp.push g :: p) = (if key g < key f then 1 else 0) + higher f p := by
      intro p
      show (List.filter _ (g :: pushed p)).length = _
      rw [List.filter_cons]
      by_cases h : key g < key f
      · rw [if_pos h, if_pos (decide_eq_true h)]
        exact Nat.add_comm ..
      · rw [if_neg h, if_neg (by simpa using h), Nat.zero_add]
        rfl
    have e2 : ∀ p : List (QOp mtu), pops (QOp.push g :: p) = pops p := fun p => rfl
    constructor
    · rintro ⟨p, hp, hlt⟩
      rcases List.prefix_cons_iff.1 hp with rfl | ⟨p', rfl, hp'⟩
      · exact absurd hlt (Nat.not_lt_zero _)
      · rw [e, e2] at hlt
        exact ⟨p', hp', by omega⟩
    · rintro ⟨p, hp, hlt⟩
      exact ⟨.push g :: p, List.prefix_cons_iff.2 (.inr ⟨p, rfl, hp⟩), by rw [e, e2]; omega⟩
  | pop =>
    have e : ∀ p : List (QOp mtu), higher f (QOp.pop :: p) = higher f p := fun p => rfl
    have e2 : ∀ p : List (QOp mtu), pops (QOp.pop :: p) = pops p + 1 := fun p => rfl
    constructor
    · rintro ⟨p, hp, hlt⟩
      rcases List.prefix_cons_iff.1 hp with rfl | ⟨p', rfl, hp'⟩
      · exact absurd hlt (Nat.not_lt_zero _)
      · rw [e, e2] at hlt
        by_cases h0 : n = 0
        · exact .inl h0
        · exact .inr ⟨p', hp', by omega⟩
    · rintro (rfl | ⟨p, hp, hlt⟩)
      · exact ⟨[.pop], List.prefix_cons_iff.2 (.inr ⟨[], rfl, List.nil_prefix⟩), Nat.zero_lt_one⟩
      · by_cases h0 : n = 0
        · exact ⟨[.pop], List.prefix_cons_iff.2 (.inr ⟨[], rfl, List.nil_prefix⟩), by subst h0; exact Nat.zero_lt_one⟩
        · exact ⟨.pop :: p, List.prefix_cons_iff.2 (.inr ⟨p, rfl, hp⟩), by rw [e, e2]; omega⟩

theorem ofId_key (f g : FrameT) : (ofId (f.id.setWidth 29) [g]).length = if key g = key f then 1 else 0 := by
  have := setWidth_key g f
  simp only [ofId, List.filter_cons, List.filter_nil]
  rw [this]
  by_cases h : key g = key f <;> simp [h]

/-- The frame stays where it is but for those that go before it. -/
theorem track (f : FrameT) (ops : List (QOp 64)) : ∀ (a b out left : List FrameT), (∀ x ∈ a, key x ≤ key f) → QRun .multiset ops (a ++ f :: b) out left →
    ((∃ p, p <+: ops ∧ a.length + higher f p < pops p) ↔ (ofId (f.id.setWidth 29) left).length ≤ (ofId (f.id.setWidth 29) b).length + (ofId (f.id.setWidth 29) (pushed ops)).length) := by
  induction ops with
  | nil =>
    intro a b out left ha h
    cases h
    constructor
    · rintro ⟨p, hp, hlt⟩
      have := List.prefix_nil.1 hp
      subst this
      exact absurd hlt (Nat.not_lt_zero _)
    · intro hle
      have h1 : (ofId (f.id.setWidth 29) (a ++ f :: b)).length = (ofId (f.id.setWidth 29) a).length + ((ofId (f.id.setWidth 29) [f]).length + (ofId (f.id.setWidth 29) b).length) := by
        rw [← ofId_cons]
        simp only [ofId, List.filter_append, List.length_append]
      have h2 := ofId_key f f
      rw [if_pos rfl] at h2
      have h3 : (ofId (f.id.setWidth 29) (pushed ([] : List (QOp 64)))).length = 0 := rfl
      omega
  | cons op ops ih =>
    intro a b out left ha h
    rw [hasTurn_iff]
    generalize hL : a ++ f :: b = L at h
    cases h with
    | @push g _ _ _ _ h =>
      subst hL
      have h : QRun .multiset ops (insertUpper g (a ++ f :: b)) out left := h
      have hp : (ofId (f.id.setWidth 29) (pushed (QOp.push g :: ops))).length = (ofId (f.id.setWidth 29) [g]).length + (ofId (f.id.setWidth 29) (pushed ops)).length := ofId_cons ..
      rw [hp, ofId_key]
      simp only
      by_cases hk : key g < key f
      · obtain ⟨a', e, hl, ha'⟩ := insertUpper_before g f hk b a ha
        rw [e] at h
        rw [if_pos hk, if_neg (by omega), ← hl, Nat.zero_add]
        exact ih a' b out left ha' h
      · have e : insertUpper g (a ++ f :: b) = a ++ f :: insertUpper g b := by
          have := insertUpper_after g b (a ++ [f]) (fun x hx => by
            rcases List.mem_append.1 hx with hx | hx
            · have := ha x hx; omega
            · rw [List.mem_singleton.1 hx]; omega)
          simpa using this
        rw [e] at h
        have := ih a (insertUpper g b) out left ha h
        rw [insertUpper_ofId, ofId_key] at this
        rw [if_neg hk, Nat.add_zero, this]
        omega
    | @pop g _ _ rest _ _ ht h =>
      have ht : a ++ f :: b = g :: rest := hL.trans ht
      have hp : pushed (QOp.pop :: ops) = pushed ops := rfl
      rw [hp]
      cases a with
      | nil =>
        cases ht
        simp only [List.length_nil, true_or, true_iff]
        have := qrun_total (f.id.setWidth 29) h
        omega
      | cons y a =>
        cases ht
        simp only [List.length_cons, Nat.add_sub_cancel]
        have := ih a b _ left (fun x hx => ha x (List.mem_cons_of_mem _ hx)) h
        rw [← this]
        constructor
        · rintro (h0 | h0)
          · omega
          · exact h0
        · exact .inr
    | empty h => exact absurd hL (by simp)

theorem sorted_before {l q : List FrameT} (h : Sorted l q) (f : FrameT) : before f l = before f q := by
  have hp : l.Perm q := by
    apply List.perm_iff_count.2
    intro x
    have h1 := h.same (key x)
    have c : ∀ m : List FrameT, m.count x = (m.filter fun g => key g == key x).count x := fun m => (List.count_filter (by simp)).symm
    rw [c l, c q, h1]
  exact (hp.filter _).length_eq

/-- In a sorted container the frames that go before are the first. -/
theorem insertUpper_sorted {f : FrameT} {l : List FrameT} (hs : l.Pairwise fun a b => key a ≤ key b) :
    ∃ a b, insertUpper f l = a ++ f :: b ∧ a.length = before f l ∧ (∀ x ∈ a, key x ≤ key f) ∧ (ofId (f.id.setWidth 29) b).length = 0 := by
  induction l with
  | nil => exact ⟨[], [], rfl, rfl, fun x hx => (by cases hx), rfl⟩
  | cons y l ih =>
    rw [List.pairwise_cons] at hs
    show ∃ a b, (if f.gt y then _ else _) = _ ∧ _
    by_cases hy : f.gt y = true
    · have hlt := (gt_iff f y).1 hy
      have hall : ∀ x ∈ y :: l, key f < key x := fun x hx => by
        rcases List.mem_cons.1 hx with rfl | hx
        · exact hlt
        · have := hs.1 x hx; omega
      rw [if_pos hy]
      refine ⟨[], y :: l, rfl, ?_, fun x hx => (by cases hx), ?_⟩
      · symm
        apply List.length_eq_zero_iff.2
        apply List.filter_eq_nil_iff.2
        intro x hx
        have := hall x hx
        simp only [decide_eq_true_eq]
        exact Nat.not_le.2 this
      · apply List.length_eq_zero_iff.2
        apply List.filter_eq_nil_iff.2
        intro x hx
        have := hall x hx
        rw [setWidth_key]
        simp only [beq_iff_eq]
        omega
    · rw [if_neg hy]
      obtain ⟨a, b, e, h1, h2, h3⟩ := ih hs.2
      have hle : key y ≤ key f := (gt_false f y).1 (by simpa using hy)
      refine ⟨y :: a, b, by rw [e]; rfl, ?_, fun x hx => ?_, h3⟩
      · unfold before
        rw [List.filter_cons, if_pos (decide_eq_true hle)]
        simp only [List.length_cons, h1]
        rfl
      · rcases List.mem_cons.1 hx with rfl | hx
        · exact hle
        · exact h2 x hx

/-! ## C141 -/

/-- A frame that waits in a `std::multiset` is taken exactly when it is its turn: frames of lower priority never delay it, nor do those of its own priority that come later.
Taken means: more frames with its identifier have been taken than were queued before it. -/
theorem C141_queue {ops ops' : List (QOp 64)} {f : FrameT} {out left : List FrameT} (h : QRun .multiset (ops ++ .push f :: ops') [] out left) :
    HasTurn f (wanted false ops []).2 ops' ↔ (ofId (f.id.setWidth 29) (pushed ops)).length < (ofId (f.id.setWidth 29) out).length := by
  obtain ⟨out1, mid, out2, h1, h2, -⟩ := qrun_split h
  cases h2 with
  | push h2 =>
    have h2 : QRun .multiset ops' (insertUpper f mid) out2 left := h2
    obtain ⟨-, hs⟩ := sorted_run false (.inl ⟨rfl, rfl⟩) h1 [] .empty
    obtain ⟨a, b, e, ha, hk, hb⟩ := insertUpper_sorted (f := f) hs.sorted
    rw [e] at h2
    have key := track f ops' a b out2 left hk h2
    rw [ha, sorted_before hs] at key
    refine Iff.trans key ?_
    have h1 := qrun_total (f.id.setWidth 29) h
    rw [ofId_pushed, ofId_key, if_pos rfl] at h1
    have h3 : (ofId (f.id.setWidth 29) ([] : List FrameT)).length = 0 := rfl
    omega

/-- The same for the sender of C133, on a CAN FD bus: the frame is still in the queue exactly as long as it has not been its turn, where frames are counted as `write` says
they are written; and once nothing is in the receiver's socket, the receiver has got it exactly if it has been. -/
theorem C141_sender {tx rx : Iface} {ops ops' : List (QOp 64)} {f : FrameT} {c : Stream} (h : Sender.Reaches OnBus (.start tx rx []) (ops ++ .push f :: ops') c)
    (hg : ∀ g ∈ pushed (ops ++ .push f :: ops'), g.dlc ≤ 8 ∧ canId29 g.id ≠ 0) :
    (HasTurn f (wanted false ops []).2 ops' ↔ (ofId (f.id.setWidth 29) c.pending).length ≤ (ofId (f.id.setWidth 29) (pushed ops')).length) ∧
    (c.sock.queue = [] → (HasTurn f (wanted false ops []).2 ops' ↔ (ofId (f.id.setWidth 29) (pushed ops)).length < (ofId (f.id.setWidth 29) c.got).length)) := by
  obtain ⟨out, hq, ⟨-, x, y, hfs, hx, hy⟩, -⟩ := senderInv_reaches faithful_bus h hg
  have hxy : out = x ++ y := List.append_cancel_right hfs
  have hkey := C141_queue hq
  constructor
  · rw [hkey]
    have h1 := qrun_total (f.id.setWidth 29) hq
    rw [ofId_pushed, ofId_key, if_pos rfl] at h1
    have h3 : (ofId (f.id.setWidth 29) ([] : List FrameT)).length = 0 := rfl
    omega
  · intro hs
    rw [hkey]
    rw [hs] at hy
    have hy0 : y = [] := List.eq_nil_of_length_eq_zero hy.1
    rw [hxy, hy0, List.append_nil]
    have := (paired_filter (same_ofId (f.id.setWidth 29)) hx).1
    unfold ofId
    rw [this]

theorem replicate_run (f g : FrameT) (h : key g < key f) (n : Nat) : QRun .multiset ((List.replicate n [QOp.push g, .pop]).flatten) [f] (List.replicate n g) [f] := by
  induction n with
  | zero => exact .done _
  | succ n ih =>
    show QRun .multiset (QOp.push g :: .pop :: (List.replicate n [QOp.push g, .pop]).flatten) [f] (g :: List.replicate n g) [f]
    refine .push (.pop (rest := [f]) ?_ ih)
    show insertUpper g [f] = _
    show (if g.gt f then _ else _) = _
    rw [if_pos ((gt_iff g f).2 h)]

/-- There is no other limit: while frames of higher priority keep coming, a frame is not sent however many are. -/
theorem C141_no_limit (f g : FrameT) (h : canId29 g.id < canId29 f.id) (n : Nat) :
    QRun .multiset (.push f :: (List.replicate n [QOp.push g, .pop]).flatten) [] (List.replicate n g) [f] := .push (replicate_run f g h n)

/-- Two frames of one transfer wait, one of higher priority is queued: it is its turn after the first frame written, not before. -/
example : HasTurn (smallFrame 5) (wanted false [.push (smallFrame 9), .push (smallFrame 9)] []).2 [.push (smallFrame 9), .pop] ∧
    ¬ HasTurn (smallFrame 9) (wanted false [.push (smallFrame 9), .push (smallFrame 9)] []).2 [.push (smallFrame 5), .pop, .pop] := by
  have e : (wanted false [.push (smallFrame 9), .push (smallFrame 9)] []).2 = [smallFrame 9, smallFrame 9] := rfl
  rw [e]
  constructor
  · exact ⟨_, List.prefix_refl _, by decide⟩
  · rintro ⟨p, hp, hlt⟩
    obtain ⟨t, ht⟩ := hp
    have h2 : pops p ≤ 2 := by
      have := congrArg pops ht
      have e1 : pops (p ++ t) = pops p + pops t := by simp [pops, List.filter_append]
      have e2 : pops [QOp.push (smallFrame 5), .pop, .pop] = 2 := rfl
      omega
    have h3 : before (smallFrame 9) [smallFrame 9, smallFrame 9] = 2 := by decide
    omega

end Uavcan.SocketCan
