import Verif.Lemmas.TxQueue

/-!
# C126: frames that wait to be sent
-/

namespace Uavcan.Can
open Spec

/-! ## C126 -/

/-- C126: whatever container with the operators of `Frame` the frames wait in, they are sent as wanted: what the bus would take, and first come, first served. -/
def C126_Statement : Prop :=
  ∀ (mtu : Nat) (k : Kind) (ops : List (QOp mtu)) (out left : List (Frame mtu)), QRun k ops [] out left → out = (wanted false ops []).1

/-- C126: a `std::multiset` sends as wanted. -/
theorem C126_multiset_partial {mtu : Nat} (ops : List (QOp mtu)) (out left : List (Frame mtu)) (h : QRun .multiset ops [] out left) :
    out = (wanted false ops []).1 ∧ left.Pairwise (fun a b => b.gt a = false) ∧ ∀ f, f ∈ left ↔ f ∈ (wanted false ops []).2 := by
  obtain ⟨a, b⟩ := sorted_run false (.inl ⟨rfl, rfl⟩) h [] .empty
  exact ⟨a, b.sorted.imp fun {x y} hxy => (gt_false y x).2 hxy, b.mem⟩

/-- C126: a `std::set` sends as wanted, except that a frame is lost if another with its identifier waits. -/
theorem C126_set_partial {mtu : Nat} (ops : List (QOp mtu)) (out left : List (Frame mtu)) (h : QRun .set ops [] out left) :
    out = (wanted true ops []).1 ∧ ∀ f, f ∈ left ↔ f ∈ (wanted true ops []).2 := by
  obtain ⟨a, b⟩ := sorted_run true (.inr ⟨rfl, rfl⟩) h [] .empty
  exact ⟨a, b.mem⟩

/-- C126: what is wanted: frames of one identifier are sent in the order they were queued, none is lost and none is sent twice. -/
theorem C126_first_come_partial {mtu : Nat} (ops : List (QOp mtu)) (q : List (Frame mtu)) (i : BitVec 29) :
    ((wanted false ops q).1 ++ (wanted false ops q).2).filter (fun f => f.id.setWidth 29 == i) =
      (q ++ pushed ops).filter (fun f => f.id.setWidth 29 == i) := by
  induction ops generalizing q with
  | nil => simp [wanted, pushed]
  | cons op ops ih =>
    cases op with
    | push f =>
      rw [wanted]
      simp only [Bool.false_and, Bool.false_eq_true, if_false]
      rw [ih (q ++ [f])]
      simp [pushed]
    | pop =>
      rw [wanted]
      cases hw : (winners q).head? with
      | none => simp only; rw [ih q]; rfl
      | some f =>
        simp only
        rw [List.cons_append, List.filter_cons, ih (q.erase f)]
        obtain ⟨-, l, hl⟩ := (head_winners q f).1 hw
        have hp : pushed (QOp.pop :: ops) = pushed ops := rfl
        have hkey : ∀ g : Frame mtu, (g.id.setWidth 29 == i) = (key g == i.toNat) := by
          intro g
          rw [Bool.eq_iff_iff, beq_iff_eq, beq_iff_eq, ← BitVec.toNat_inj, BitVec.toNat_setWidth]
          show _ ↔ canId29 g.id = _
          unfold canId29
          omega
        rw [hp, List.filter_append, List.filter_append]
        have e : (fun g : Frame mtu => g.id.setWidth 29 == i) = fun g => key g == i.toNat := funext hkey
        rw [e, hkey]
        by_cases hi : key f = i.toNat
        · rw [← hi, if_pos (by simp), erase_filter_eq, hl, List.erase_cons_head]
          rfl
        · rw [if_neg (by simpa using hi), erase_filter_ne q f _ hi]

/-- C126: a `std::priority_queue` sends every frame once, and the identifiers in the order wanted; only which of several frames with one identifier comes first is
left open. -/
theorem C126_priority_queue_partial {mtu : Nat} (ops : List (QOp mtu)) (out left : List (Frame mtu)) (h : QRun .priorityQueue ops [] out left) :
    (out ++ left).Perm (pushed ops) ∧ out.map (·.id.setWidth 29) = (wanted false ops []).1.map (·.id.setWidth 29) := by
  have key : ∀ {ops : List (QOp mtu)} {l out left : List (Frame mtu)}, QRun .priorityQueue ops l out left → ∀ q, (l.map key).Perm (q.map key) →
      (out ++ left).Perm (l ++ pushed ops) ∧ out.map key = (wanted false ops q).1.map key := by
    intro ops l out left h
    induction h with
    | done l => intro q _; exact ⟨by simp [pushed], rfl⟩
    | @push f ops l out left _ ih =>
      intro q hq
      rw [wanted]
      simp only [Bool.false_and, Bool.false_eq_true, if_false]
      obtain ⟨a, b⟩ := ih (q ++ [f]) (by
        simp only [Kind.insert, List.map_cons, List.map_append, List.map_nil]
        exact (hq.cons _).trans (List.perm_append_singleton _ _).symm)
      refine ⟨a.trans ?_, b⟩
      simp only [Kind.insert, pushed, List.filterMap_cons, List.cons_append]
      exact List.perm_middle.symm
    | @pop f ops l rest out left ht _ ih =>
      intro q hq
      obtain ⟨hp, hmax⟩ := ht
      rw [wanted]
      have hf : Can.key f ∈ q.map Can.key := hq.mem_iff.1 (List.mem_map.2 ⟨f, hp.mem_iff.2 List.mem_cons_self, rfl⟩)
      cases hw : (winners q).head? with
      | none =>
        have := (winners_nil q).1 hw
        subst this
        cases hf
      | some g =>
        obtain ⟨hmin, t, ht'⟩ := (head_winners q g).1 hw
        have hgq : g ∈ q := by
          have : g ∈ q.filter (fun x => Can.key x == Can.key g) := by rw [ht']; exact List.mem_cons_self
          exact (List.mem_filter.1 this).1
        have hfg : Can.key f = Can.key g := by
          obtain ⟨x, hx, hxk⟩ := List.mem_map.1 hf
          have h1 := hmin x hx
          obtain ⟨y, hy, hyk⟩ := List.mem_map.1 (hq.mem_iff.2 (List.mem_map.2 ⟨g, hgq, rfl⟩))
          have h2 : Can.key f ≤ Can.key y := by
            rcases List.mem_cons.1 (hp.mem_iff.1 hy) with rfl | hy
            · exact Nat.le_refl _
            · exact (lt_false f y).1 (hmax y hy)
          omega
        obtain ⟨a, b⟩ := ih (q.erase g) (by
          have h1 := ((hp.map Can.key).symm.trans hq).trans ((List.perm_cons_erase hgq).map Can.key)
          simp only [List.map_cons] at h1
          rw [hfg] at h1
          exact (List.perm_cons _).1 h1)
        refine ⟨(a.cons f).trans ?_, ?_⟩
        · exact (hp.symm.append_right _)
        · simp only [List.map_cons, b, hfg]
    | empty _ ih =>
      intro q hq
      have : q = [] := by simpa using hq.symm.eq_nil
      subst this
      rw [wanted, (winners_nil _).2 rfl]
      exact ih [] hq
  obtain ⟨a, b⟩ := key h [] (.refl _)
  refine ⟨by simpa using a, ?_⟩
  have inj : ∀ (l m : List (Frame mtu)), l.map Can.key = m.map Can.key → l.map (fun f => f.id.setWidth 29) = m.map (fun f => f.id.setWidth 29) := by
    intro l
    induction l with
    | nil => intro m hm; cases m with
      | nil => rfl
      | cons => cases hm
    | cons x l ih =>
      intro m hm
      cases m with
      | nil => cases hm
      | cons y m =>
        simp only [List.map_cons, List.cons.injEq] at hm ⊢
        refine ⟨?_, ih m hm.2⟩
        have := setWidth_key x y
        rw [hm.1] at this
        simpa using this
  exact inj _ _ b

/-- C126: none of the containers gets stuck: there is always something an application sees. -/
theorem C126_runs {mtu : Nat} (k : Kind) (ops : List (QOp mtu)) (l : List (Frame mtu)) : ∃ out left, QRun k ops l out left := by
  induction ops generalizing l with
  | nil => exact ⟨[], l, .done l⟩
  | cons op ops ih =>
    cases op with
    | push f =>
      obtain ⟨out, left, h⟩ := ih (k.insert f l)
      exact ⟨out, left, .push h⟩
    | pop =>
      cases l with
      | nil =>
        obtain ⟨out, left, h⟩ := ih []
        exact ⟨out, left, .empty h⟩
      | cons x l =>
        cases k with
        | priorityQueue =>
          cases hw : (winners (x :: l)).head? with
          | none => exact absurd ((winners_nil _).1 hw) (by simp)
          | some f =>
            obtain ⟨hmin, t, ht⟩ := (head_winners (x :: l) f).1 hw
            have hm : f ∈ x :: l := by
              have : f ∈ (x :: l).filter (fun g => key g == key f) := by rw [ht]; exact List.mem_cons_self
              exact (List.mem_filter.1 this).1
            obtain ⟨out, left, h⟩ := ih ((x :: l).erase f)
            exact ⟨f :: out, left, .pop ⟨List.perm_cons_erase hm, fun g hg => (lt_false f g).2 (hmin g (List.mem_of_mem_erase hg))⟩ h⟩
        | multiset =>
          obtain ⟨out, left, h⟩ := ih l
          exact ⟨x :: out, left, .pop rfl h⟩
        | set =>
          obtain ⟨out, left, h⟩ := ih l
          exact ⟨x :: out, left, .pop rfl h⟩

/-- Two frames of one transfer: the same identifier, different data. -/
def part (n : Byte) : Frame 8 := { id := 0x100, data := Vector.replicate 8 n, dlc := 8, timestamp := ⟨0⟩ }

/-- C126 is false of the other two: a `std::priority_queue` may send the second frame of a transfer before the first, and a `std::set` loses the second. -/
theorem C126_full_statement_fails : ¬ C126_Statement ∧
    QRun .priorityQueue [.push (part 1), .push (part 2), .pop, .pop] [] [part 2, part 1] [] ∧
    QRun .set [.push (part 1), .push (part 2), .pop, .pop] [] [part 1] [] ∧
    (wanted false [.push (part 1), .push (part 2), .pop, .pop] []).1 = [part 1, part 2] := by
  have h1 : QRun .priorityQueue [.push (part 1), .push (part 2), .pop, .pop] [] [part 2, part 1] [] :=
    .push (.push (.pop ⟨.refl _, by decide⟩ (.pop ⟨.refl _, by decide⟩ (.done _))))
  have h2 : QRun .set [.push (part 1), .push (part 2), .pop, .pop] [] [part 1] [] :=
    .push (.push (.pop (rest := []) rfl (.empty (.done _))))
  have h3 : (wanted false [.push (part 1), .push (part 2), .pop, .pop] []).1 = [part 1, part 2] := by decide +kernel
  refine ⟨fun h => ?_, h1, h2, h3⟩
  have := h 8 .priorityQueue _ _ _ h1
  rw [h3] at this
  exact absurd this (by decide)

/-- C126: a frame of high priority overtakes, and the frames of a transfer stay in order. -/
example : QRun .multiset [.push (part 1), .push (part 2), .push (idFrame 0x50), .pop, .pop, .pop] [] [idFrame 0x50, part 1, part 2] [] :=
  .push (.push (.push (.pop (rest := [part 1, part 2]) rfl (.pop (rest := [part 2]) rfl (.pop (rest := []) rfl (.done _))))))

end Uavcan.Can
