import Verif.Spec.Arbitration
import Verif.Props.Can

/-!
# C115: the order of frames is the order of the bus
-/

namespace Uavcan.Can
open Spec

/-- The number the first `n` bits of a list stand for. -/
def prefixVal (l : List Bool) : Nat → Nat
  | 0 => 0
  | n + 1 => 2 * prefixVal l n + (l.getD n true).toNat

theorem stillSending_iff {α : Type} (nodes : List (List Bool × α)) (n : Nat) (p : List Bool × α) :
    p ∈ stillSending nodes n ↔ p ∈ nodes ∧ ∀ q ∈ nodes, prefixVal p.1 n ≤ prefixVal q.1 n := by
  induction n generalizing p with
  | zero => simp [stillSending, prefixVal]
  | succ n ih =>
    simp only [stillSending, List.mem_filter, beq_iff_eq, prefixVal]
    constructor
    · rintro ⟨hp, hb⟩
      obtain ⟨hm, hmin⟩ := (ih p).1 hp
      refine ⟨hm, fun q hq => ?_⟩
      have hle := hmin q hq
      by_cases he : prefixVal q.1 n = prefixVal p.1 n
      · have hql : q ∈ stillSending nodes n := (ih q).2 ⟨hq, fun r hr => by rw [he]; exact hmin r hr⟩
        cases hc : p.1.getD n true with
        | false => simp only [Bool.toNat_false]; omega
        | true =>
          rw [hc] at hb
          have := List.all_eq_true.1 hb.symm q hql
          rw [this]; omega
      · have := Bool.toNat_le (p.1.getD n true)
        omega
    · rintro ⟨hm, hmin⟩
      have hp : p ∈ stillSending nodes n := by
        refine (ih p).2 ⟨hm, fun q hq => ?_⟩
        have := hmin q hq
        have h1 := Bool.toNat_le (p.1.getD n true)
        have h2 := Bool.toNat_le (q.1.getD n true)
        omega
      refine ⟨hp, ?_⟩
      cases hc : p.1.getD n true with
      | true =>
        refine (List.all_eq_true.2 fun q hq => ?_).symm
        obtain ⟨hqm, hqmin⟩ := (ih q).1 hq
        have h1 := hqmin p hm
        have h2 := ((ih p).1 hp).2 q hqm
        have h3 := hmin q hqm
        rw [hc] at h3
        cases hd : q.1.getD n true with
        | true => rfl
        | false => rw [hd] at h3; simp only [Bool.toNat_false, Bool.toNat_true] at h3; omega
      | false =>
        refine (Bool.eq_false_iff.2 fun hall => ?_).symm
        have := List.all_eq_true.1 hall p hp
        rw [hc] at this
        cases this

/-- The number a list of bits stands for, after the number `acc`. -/
def bitsVal (acc : Nat) (l : List Bool) : Nat := l.foldl (fun a b => 2 * a + b.toNat) acc

theorem bitsVal_append (acc : Nat) (l m : List Bool) : bitsVal acc (l ++ m) = bitsVal (bitsVal acc l) m := by
  simp [bitsVal, List.foldl_append]

theorem prefixVal_eq (l : List Bool) (n : Nat) (h : n ≤ l.length) : prefixVal l n = bitsVal 0 (l.take n) := by
  induction n with
  | zero => rfl
  | succ n ih =>
    have hn : n < l.length := by omega
    rw [List.take_succ_eq_append_getElem hn, bitsVal_append, prefixVal, ih (by omega), List.getD_eq_getElem?_getD,
      List.getElem?_eq_getElem hn]
    rfl

theorem bitsVal_range (x s k acc : Nat) :
    bitsVal acc ((List.range k).map fun i => x.testBit (s + (k - 1 - i))) = acc * 2 ^ k + (x >>> s) % 2 ^ k := by
  induction k generalizing acc with
  | zero => simp [bitsVal, Nat.mod_one]
  | succ k ih =>
    have hl : ((List.range (k + 1)).map fun i => x.testBit (s + (k + 1 - 1 - i))) =
        x.testBit (s + k) :: (List.range k).map fun i => x.testBit (s + (k - 1 - i)) := by
      rw [List.range_succ_eq_map, List.map_cons, List.map_map]
      congr 1
      apply List.map_congr_left
      intro i _
      show x.testBit (s + (k + 1 - 1 - (i + 1))) = _
      congr 2
      omega
    rw [hl]
    show bitsVal (2 * acc + (x.testBit (s + k)).toNat) _ = _
    rw [ih, Nat.mod_pow_succ, ← Nat.toNat_testBit, Nat.testBit_shiftRight, Nat.pow_succ, Nat.add_mul]
    have h1 : 2 * acc * 2 ^ k = acc * (2 ^ k * 2) := by
      rw [Nat.mul_comm 2 acc, Nat.mul_assoc, Nat.mul_comm 2]
    rw [h1, Nat.mul_comm (x.testBit (s + k)).toNat]
    omega

/-- The value of the arbitration field. -/
theorem field_val (id : BitVec 32) :
    prefixVal (arbitrationField id) 32 = (((id.toNat >>> 18) % 2 ^ 11 * 4 + 3) * 2 ^ 18 + id.toNat % 2 ^ 18) * 2 := by
  have hlen : (arbitrationField id).length = 32 := by simp [arbitrationField]
  rw [prefixVal_eq _ _ (by rw [hlen]; exact Nat.le_refl _), List.take_of_length_le (by rw [hlen]; exact Nat.le_refl _)]
  have h1 : ((List.range 11).map fun k => id.getLsbD (28 - k)) =
      (List.range 11).map fun i => id.toNat.testBit (18 + (11 - 1 - i)) := by
    apply List.map_congr_left
    intro i hi
    rw [List.mem_range] at hi
    show id.toNat.testBit _ = _
    congr 1
    omega
  have h2 : ((List.range 18).map fun k => id.getLsbD (17 - k)) =
      (List.range 18).map fun i => id.toNat.testBit (0 + (18 - 1 - i)) := by
    apply List.map_congr_left
    intro i hi
    show id.toNat.testBit _ = _
    congr 1
    omega
  unfold arbitrationField
  have h3 : ∀ acc, bitsVal acc [true, true] = acc * 4 + 3 := fun acc => by
    simp only [bitsVal, List.foldl_cons, List.foldl_nil, Bool.toNat_true]; omega
  have h4 : ∀ acc, bitsVal acc [false] = acc * 2 := fun acc => by
    simp only [bitsVal, List.foldl_cons, List.foldl_nil, Bool.toNat_false]; omega
  rw [h1, h2, bitsVal_append, bitsVal_append, bitsVal_append, bitsVal_range, bitsVal_range, h3, h4, Nat.shiftRight_zero, Nat.zero_mul,
    Nat.zero_add]

/-- Fields are in the order of the identifiers. -/
theorem field_le (a b : BitVec 32) :
    prefixVal (arbitrationField a) 32 ≤ prefixVal (arbitrationField b) 32 ↔ canId29 a ≤ canId29 b := by
  rw [field_val, field_val, canId29, canId29, Nat.shiftRight_eq_div_pow, Nat.shiftRight_eq_div_pow]
  omega

/-- C115: among any frames that compete for the bus, those win that no other is greater than: `>` decides like the bus. -/
theorem C115_winners {mtu : Nat} (frames : List (Frame mtu)) (f : Frame mtu) :
    f ∈ winners frames ↔ f ∈ frames ∧ ∀ g ∈ frames, g.gt f = false := by
  unfold winners
  rw [List.mem_map]
  constructor
  · rintro ⟨⟨l, f'⟩, hp, rfl⟩
    obtain ⟨hm, hmin⟩ := (stillSending_iff _ _ _).1 hp
    obtain ⟨f'', hf, he⟩ := List.mem_map.1 hm
    rw [Prod.mk.injEq] at he
    obtain ⟨h1, h2⟩ := he
    subst h2
    refine ⟨hf, fun g hg => ?_⟩
    have hg' : (arbitrationField g.id, g) ∈ frames.map fun f => (arbitrationField f.id, f) := List.mem_map.2 ⟨g, hg, rfl⟩
    have h3 := hmin (arbitrationField g.id, g) hg'
    dsimp only at h3
    rw [← h1, field_le] at h3
    rw [Bool.eq_false_iff, Ne, (C19_priority_by_id g f'').1]
    exact Nat.not_lt.2 h3
  · rintro ⟨hf, hmin⟩
    refine ⟨(arbitrationField f.id, f), (stillSending_iff _ _ _).2 ⟨List.mem_map.2 ⟨f, hf, rfl⟩, fun q hq => ?_⟩, rfl⟩
    obtain ⟨g, hg, rfl⟩ := List.mem_map.1 hq
    dsimp only
    rw [field_le]
    have := hmin g hg
    rw [Bool.eq_false_iff, Ne, (C19_priority_by_id g f).1] at this
    exact Nat.not_lt.1 this

/-- A frame without data. -/
def idFrame (id : BitVec 32) : Frame 8 := { id := id, data := Vector.replicate 8 0, dlc := 0, timestamp := ⟨0⟩ }

theorem stillSending_sublist {α : Type} (nodes : List (List Bool × α)) (n : Nat) : (stillSending nodes n).Sublist nodes := by
  induction n with
  | zero => exact List.Sublist.refl _
  | succ n ih => exact List.Sublist.trans List.filter_sublist ih

theorem winners_sublist {mtu : Nat} (frames : List (Frame mtu)) : (winners frames).Sublist frames := by
  have h := (stillSending_sublist (frames.map fun f => (arbitrationField f.id, f)) 32).map Prod.snd
  rw [List.map_map] at h
  have hid : (Prod.snd ∘ fun f : Frame mtu => (arbitrationField f.id, f)) = id := rfl
  rw [hid, List.map_id] at h
  exact h

/-- No two frames have the same identifier. -/
def DifferentIds {mtu : Nat} (frames : List (Frame mtu)) : Prop := frames.Pairwise fun a b => canId29 a.id ≠ canId29 b.id

theorem DifferentIds.perm {mtu : Nat} {a b : List (Frame mtu)} (h : DifferentIds a) (hp : a.Perm b) : DifferentIds b :=
  (hp.pairwise_iff fun h => Ne.symm h).1 h

theorem winners_one {mtu : Nat} {frames : List (Frame mtu)} (hd : DifferentIds frames) {f : Frame mtu} (hf : f ∈ winners frames) :
    winners frames = [f] := by
  have hw : (winners frames).Pairwise fun a b => canId29 a.id ≠ canId29 b.id := hd.sublist (winners_sublist frames)
  have heq : ∀ g ∈ winners frames, ∀ g' ∈ winners frames, canId29 g.id = canId29 g'.id := by
    intro g hg g' hg'
    have h1 := (C115_winners frames g).1 hg
    have h2 := (C115_winners frames g').1 hg'
    have h3 := h1.2 g' h2.1
    have h4 := h2.2 g h1.1
    rw [Bool.eq_false_iff, Ne, (C19_priority_by_id _ _).1] at h3 h4
    omega
  match hl : winners frames, hw, heq, hf with
  | [x], _, _, hf => rw [List.mem_singleton] at hf; rw [hf]
  | x :: y :: l, hw, heq, _ =>
    exact absurd (heq x (by simp) y (by simp)) ((List.pairwise_cons.1 hw).1 y (by simp))

/-- The frame with the smallest identifier wins; the flags in the upper three bits play no role. -/
example : winners [idFrame 0x80000300, idFrame 0x00000200, idFrame 0x80000201] = [idFrame 0x00000200] :=
  winners_one (by unfold DifferentIds; decide) ((C115_winners _ _).2 ⟨by simp, by decide⟩)

/-- C115: frames with different identifiers all get on the bus. -/
theorem C115_all_sent {mtu : Nat} (frames : List (Frame mtu)) (hd : DifferentIds frames) : ∃ sent, Sends frames sent := by
  generalize hn : frames.length = n
  induction n generalizing frames with
  | zero => rw [List.length_eq_zero_iff] at hn; subst hn; exact ⟨[], .done⟩
  | succ n ih =>
    have hmin : ∀ l : List (Frame mtu), l ≠ [] → ∃ f ∈ l, ∀ g ∈ l, canId29 f.id ≤ canId29 g.id := by
      intro l
      induction l with
      | nil => intro h; exact absurd rfl h
      | cons a l ih =>
        intro _
        by_cases hl : l = []
        · subst hl; exact ⟨a, by simp, fun g hg => by rw [List.mem_singleton] at hg; rw [hg]; exact Nat.le_refl _⟩
        · obtain ⟨f, hf, hm⟩ := ih hl
          by_cases hc : canId29 a.id ≤ canId29 f.id
          · refine ⟨a, by simp, fun g hg => ?_⟩
            rcases List.mem_cons.1 hg with hg | hg
            · rw [hg]; exact Nat.le_refl _
            · exact Nat.le_trans hc (hm g hg)
          · refine ⟨f, by simp [hf], fun g hg => ?_⟩
            rcases List.mem_cons.1 hg with hg | hg
            · rw [hg]; omega
            · exact hm g hg
    obtain ⟨f, hf, hm⟩ := hmin frames (by intro h; rw [h] at hn; cases hn)
    obtain ⟨a, b, hab⟩ := List.append_of_mem hf
    have hp : frames.Perm (f :: (a ++ b)) := by rw [hab]; exact List.perm_middle
    have hd' := hd.perm hp
    obtain ⟨sent, hs⟩ := ih (a ++ b) (List.pairwise_cons.1 hd').2 (by
      have := hp.length_eq
      rw [List.length_cons] at this
      omega)
    refine ⟨f :: sent, .next (winners_one hd ((C115_winners frames f).2 ⟨hf, fun g hg => ?_⟩)) hp hs⟩
    rw [Bool.eq_false_iff, Ne, (C19_priority_by_id g f).1]
    have := hm g hg
    omega

example : ∃ sent, Sends [idFrame 0x80000300, idFrame 0x00000200, idFrame 0x80000201] sent :=
  C115_all_sent _ (by unfold DifferentIds; decide)

/-- C115: and they get there in the order of `>`. -/
theorem C115_sent_in_order {mtu : Nat} {frames sent : List (Frame mtu)} (h : Sends frames sent) (hd : DifferentIds frames) :
    sent.Perm frames ∧ sent.Pairwise fun a b => a.gt b = true := by
  induction h with
  | done => exact ⟨List.Perm.refl _, List.Pairwise.nil⟩
  | @next frames rest sent f hw hp _ ih =>
    have hd' := List.pairwise_cons.1 (hd.perm hp)
    obtain ⟨ih1, ih2⟩ := ih hd'.2
    refine ⟨(ih1.cons f).trans hp.symm, List.pairwise_cons.2 ⟨fun g hg => ?_, ih2⟩⟩
    have hf : f ∈ winners frames := by rw [hw]; simp
    have hg' := ih1.mem_iff.1 hg
    have h1 := ((C115_winners frames f).1 hf).2 g (hp.mem_iff.2 (List.mem_cons_of_mem _ hg'))
    have h2 := hd'.1 g hg'
    rw [Bool.eq_false_iff, Ne, (C19_priority_by_id g f).1] at h1
    rw [(C19_priority_by_id f g).1]
    omega

/-- C115: a priority queue that compares frames with `<` hands them out in exactly the order in which the bus would take them. -/
theorem C115_queue {mtu : Nat} (frames out : List (Frame mtu)) (hd : DifferentIds frames) : Pops frames out ↔ Sends frames out := by
  constructor
  · intro h
    induction h with
    | done => exact .done
    | @next frames rest out f hp hmax _ ih =>
      have hd' := hd.perm hp
      refine .next (winners_one hd ((C115_winners frames f).2 ⟨hp.mem_iff.2 (by simp), fun g hg => ?_⟩)) hp
        (ih (List.pairwise_cons.1 hd').2)
      rcases List.mem_cons.1 (hp.mem_iff.1 hg) with hg | hg
      · rw [hg]; exact (C19_strict_weak_order 0 f f f).1
      · exact hmax g hg
  · intro h
    induction h with
    | done => exact .done
    | @next frames rest sent f hw hp _ ih =>
      have hd' := hd.perm hp
      refine .next hp (fun g hg => ?_) (ih (List.pairwise_cons.1 hd').2)
      have hf : f ∈ winners frames := by rw [hw]; simp
      exact ((C115_winners frames f).1 hf).2 g (hp.mem_iff.2 (List.mem_cons_of_mem _ hg))

example : Pops [idFrame 0x80000300, idFrame 0x00000200] [idFrame 0x00000200, idFrame 0x80000300] :=
  .next (List.Perm.swap _ _ _) (by decide) (.next (List.Perm.refl _) (by decide) .done)

end Uavcan.Can
