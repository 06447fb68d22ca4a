import Verif.Spec.TxQueue
import Verif.Props.Arbitration

/-!
# Lemmas for `Props/TxQueue`
-/

namespace Uavcan.Can
open Spec

theorem filter_filter_ex {α : Type} (nodes : List (List Bool × α)) (n : Nat) : ∃ P : List Bool × α → Bool, stillSending nodes n = nodes.filter P := by
  induction n with
  | zero => exact ⟨fun _ => true, (List.filter_eq_self.2 fun _ _ => rfl).symm⟩
  | succ n ih =>
    obtain ⟨P, hP⟩ := ih
    refine ⟨fun p => (p.1.getD n true == (stillSending nodes n).all fun p => p.1.getD n true) && P p, ?_⟩
    rw [← List.filter_filter, ← hP]
    rfl

/-- The 29 bits that count. -/
abbrev key {mtu : Nat} (f : Frame mtu) : Nat := canId29 f.id

theorem gt_iff {mtu : Nat} (f g : Frame mtu) : f.gt g = true ↔ key f < key g := (C19_priority_by_id f g).1
theorem gt_false {mtu : Nat} (f g : Frame mtu) : f.gt g = false ↔ key g ≤ key f := by
  rw [Bool.eq_false_iff, Ne, gt_iff]; omega
theorem lt_false {mtu : Nat} (f g : Frame mtu) : f.lt g = false ↔ key f ≤ key g := by
  rw [Bool.eq_false_iff, Ne, (C19_priority_by_id f g).2.1]; exact Nat.not_lt

theorem winners_filter {mtu : Nat} (q : List (Frame mtu)) (m : Nat) (hm : ∀ g ∈ q, m ≤ key g) (he : ∃ g ∈ q, key g = m) :
    winners q = q.filter (fun g => key g == m) := by
  obtain ⟨P, hP⟩ := filter_filter_ex (q.map fun f => (arbitrationField f.id, f)) 32
  have hw : winners q = q.filter (fun f => P (arbitrationField f.id, f)) := by
    unfold winners
    rw [hP, List.filter_map, List.map_map]
    have : (Prod.snd ∘ fun f : Frame mtu => (arbitrationField f.id, f)) = id := rfl
    rw [this, List.map_id]
    rfl
  rw [hw]
  apply List.filter_congr
  intro f hf
  have h1 := C115_winners q f
  rw [hw, List.mem_filter] at h1
  obtain ⟨g0, hg0, hk⟩ := he
  have : P (arbitrationField f.id, f) = true ↔ key f = m := by
    constructor
    · intro hp
      have := (gt_false _ _).1 ((h1.1 ⟨hf, hp⟩).2 g0 hg0)
      have := hm f hf
      omega
    · intro hk
      exact (h1.2 ⟨hf, fun g hg => (gt_false _ _).2 (by have := hm g hg; omega)⟩).2
  cases hb : P (arbitrationField f.id, f) with
  | true => rw [hb] at this; simp [this.1 rfl]
  | false =>
    rw [hb] at this
    symm
    rw [beq_eq_false_iff_ne]
    intro h
    have := this.2 h
    cases this

theorem erase_filter_ne {mtu : Nat} (q : List (Frame mtu)) (f : Frame mtu) (i : Nat) (h : key f ≠ i) :
    (q.erase f).filter (fun g => key g == i) = q.filter (fun g => key g == i) := by
  induction q with
  | nil => rfl
  | cons g q ih =>
    rw [List.erase_cons]
    split
    · rename_i e
      have e : g = f := by simpa using e
      subst e
      rw [List.filter_cons, if_neg (by simpa using h)]
    · rw [List.filter_cons, List.filter_cons, ih]

theorem erase_filter_eq {mtu : Nat} (q : List (Frame mtu)) (f : Frame mtu) :
    (q.erase f).filter (fun g => key g == key f) = (q.filter (fun g => key g == key f)).erase f := by
  induction q with
  | nil => rfl
  | cons g q ih =>
    rw [List.erase_cons]
    split
    · rename_i e
      have e : g = f := by simpa using e
      subst e
      rw [List.filter_cons, if_pos (by simp), List.erase_cons_head]
    · rename_i e
      rw [List.filter_cons, List.filter_cons, ih]
      split
      · rw [List.erase_cons, if_neg e]
      · rfl

/-- The first of those that would win: it is there, nothing has a smaller key, and it is the first with its key. -/
theorem head_winners {mtu : Nat} (q : List (Frame mtu)) (f : Frame mtu) : (winners q).head? = some f ↔
    (∀ g ∈ q, key f ≤ key g) ∧ ∃ l, q.filter (fun g => key g == key f) = f :: l := by
  constructor
  · intro h
    have hf : f ∈ winners q := List.mem_of_mem_head? h
    obtain ⟨hq, hmin⟩ := (C115_winners q f).1 hf
    have hmin' : ∀ g ∈ q, key f ≤ key g := fun g hg => (gt_false g f).1 (hmin g hg)
    rw [winners_filter q (key f) hmin' ⟨f, hq, rfl⟩] at h
    refine ⟨hmin', ?_⟩
    cases hl : q.filter (fun g => key g == key f) with
    | nil => rw [hl] at h; cases h
    | cons x l => rw [hl] at h; cases h; exact ⟨l, rfl⟩
  · rintro ⟨hmin, l, hl⟩
    have hq : f ∈ q := by
      have : f ∈ q.filter (fun g => key g == key f) := by rw [hl]; exact List.mem_cons_self
      exact (List.mem_filter.1 this).1
    rw [winners_filter q (key f) hmin ⟨f, hq, rfl⟩, hl]
    rfl

theorem winners_nil {mtu : Nat} (q : List (Frame mtu)) : (winners q).head? = none ↔ q = [] := by
  constructor
  · intro h
    cases q with
    | nil => rfl
    | cons g q =>
      have : ∃ f ∈ g :: q, ∀ h ∈ g :: q, key f ≤ key h := by
        clear h
        induction q generalizing g with
        | nil => exact ⟨g, List.mem_cons_self, fun h hh => by rw [List.mem_singleton.1 hh]; omega⟩
        | cons x q ih =>
          obtain ⟨f, hf, hmin⟩ := ih x
          by_cases hk : key g ≤ key f
          · refine ⟨g, List.mem_cons_self, fun h hh => ?_⟩
            rcases List.mem_cons.1 hh with rfl | hh
            · omega
            · have := hmin h hh; omega
          · refine ⟨f, List.mem_cons_of_mem _ hf, fun h hh => ?_⟩
            rcases List.mem_cons.1 hh with rfl | hh
            · omega
            · exact hmin h hh
      obtain ⟨f, hf, hmin⟩ := this
      have : f ∈ winners (g :: q) := (C115_winners _ f).2 ⟨hf, fun h hh => (gt_false _ _).2 (hmin h hh)⟩
      rw [List.head?_eq_none_iff] at h
      rw [h] at this
      cases this
  · rintro rfl
    have : winners ([] : List (Frame mtu)) = [] := by
      cases h : winners ([] : List (Frame mtu)) with
      | nil => rfl
      | cons f l =>
        have := (C115_winners ([] : List (Frame mtu)) f).1 (by rw [h]; exact List.mem_cons_self)
        cases this.1
    rw [this]; rfl

/-- The container `l` is sorted and holds what waits in `q`, those of one identifier in order. -/
structure Sorted {mtu : Nat} (l q : List (Frame mtu)) : Prop where
  sorted : l.Pairwise fun a b => key a ≤ key b
  same : ∀ i, l.filter (fun g => key g == i) = q.filter (fun g => key g == i)

theorem Sorted.mem {mtu : Nat} {l q : List (Frame mtu)} (h : Sorted l q) (f : Frame mtu) : f ∈ l ↔ f ∈ q := by
  have := h.same (key f)
  have h1 : f ∈ l.filter (fun g => key g == key f) ↔ f ∈ q.filter (fun g => key g == key f) := by rw [this]
  simpa [List.mem_filter] using h1

theorem insertUpper_mem {mtu : Nat} (f g : Frame mtu) (l : List (Frame mtu)) : g ∈ insertUpper f l ↔ g = f ∨ g ∈ l := by
  induction l with
  | nil => simp [insertUpper]
  | cons x l ih =>
    rw [insertUpper]
    split
    · simp
    · rw [List.mem_cons, ih, List.mem_cons]
      constructor
      · rintro (h | h | h) <;> simp [h]
      · rintro (h | h | h) <;> simp [h]

theorem Sorted.insert {mtu : Nat} {l q : List (Frame mtu)} (h : Sorted l q) (f : Frame mtu) : Sorted (insertUpper f l) (q ++ [f]) := by
  have hs : ∀ (l : List (Frame mtu)), l.Pairwise (fun a b => key a ≤ key b) → (insertUpper f l).Pairwise (fun a b => key a ≤ key b) ∧
      ∀ i, (insertUpper f l).filter (fun g => key g == i) = l.filter (fun g => key g == i) ++ [f].filter (fun g => key g == i) := by
    intro l
    induction l with
    | nil => intro _; exact ⟨List.pairwise_singleton _ _, fun i => rfl⟩
    | cons x l ih =>
      intro hp
      obtain ⟨hx, hl⟩ := List.pairwise_cons.1 hp
      obtain ⟨i1, i2⟩ := ih hl
      rw [insertUpper]
      split
      · rename_i hg
        have hlt := (gt_iff f x).1 hg
        refine ⟨List.pairwise_cons.2 ⟨fun b hb => ?_, hp⟩, fun i => ?_⟩
        · rcases List.mem_cons.1 hb with rfl | hb
          · omega
          · have := hx b hb; omega
        · by_cases hi : key f = i
          · have : (x :: l).filter (fun g => key g == i) = [] := by
              rw [List.filter_eq_nil_iff]
              intro b hb
              have : key x ≤ key b := by
                rcases List.mem_cons.1 hb with rfl | hb
                · omega
                · exact hx b hb
              simp only [beq_iff_eq]
              omega
            rw [List.filter_cons, this, if_pos (by simpa using hi)]
            simp [hi]
          · rw [List.filter_cons, if_neg (by simpa using hi)]
            simp [hi]
      · rename_i hg
        have hg' : f.gt x = false := by simpa using hg
        have hle := (gt_false f x).1 hg'
        refine ⟨List.pairwise_cons.2 ⟨fun b hb => ?_, i1⟩, fun i => ?_⟩
        · rcases (insertUpper_mem f b l).1 hb with rfl | hb
          · exact hle
          · exact hx b hb
        · rw [List.filter_cons, List.filter_cons, i2 i]
          split <;> rfl
  obtain ⟨a, b⟩ := hs l h.sorted
  refine ⟨a, fun i => ?_⟩
  rw [b i, List.filter_append, h.same i]

theorem Sorted.pop {mtu : Nat} {f : Frame mtu} {l q : List (Frame mtu)} (h : Sorted (f :: l) q) :
    (winners q).head? = some f ∧ Sorted l (q.erase f) := by
  obtain ⟨hx, hl⟩ := List.pairwise_cons.1 h.sorted
  have hsame := h.same (key f)
  rw [List.filter_cons, if_pos (by simp)] at hsame
  refine ⟨(head_winners q f).2 ⟨fun g hg => ?_, _, hsame.symm⟩, hl, fun i => ?_⟩
  · rcases List.mem_cons.1 ((h.mem g).2 hg) with rfl | hg
    · omega
    · exact hx g hg
  · by_cases hi : key f = i
    · subst hi
      rw [erase_filter_eq, ← hsame, List.erase_cons_head]
    · rw [erase_filter_ne q f i hi, ← h.same i, List.filter_cons, if_neg (by simpa using hi)]

theorem Sorted.nil {mtu : Nat} {q : List (Frame mtu)} (h : Sorted [] q) : q = [] := by
  cases q with
  | nil => rfl
  | cons f q => exact absurd ((h.mem f).2 List.mem_cons_self) (by simp)

theorem setWidth_key {mtu : Nat} (f g : Frame mtu) : (f.id.setWidth 29 == g.id.setWidth 29) = (key f == key g) := by
  rw [Bool.eq_iff_iff, beq_iff_eq, beq_iff_eq]
  show f.id.setWidth 29 = g.id.setWidth 29 ↔ canId29 f.id = canId29 g.id
  rw [← BitVec.toNat_inj, BitVec.toNat_setWidth, BitVec.toNat_setWidth]
  unfold canId29
  omega

theorem equivalent_any {mtu : Nat} {l q : List (Frame mtu)} (h : Sorted l q) (f : Frame mtu) :
    (l.any fun g => !f.gt g && !g.gt f) = q.any (fun g => g.id.setWidth 29 == f.id.setWidth 29) := by
  rw [Bool.eq_iff_iff, List.any_eq_true, List.any_eq_true]
  constructor
  · rintro ⟨g, hg, hk⟩
    refine ⟨g, (h.mem g).1 hg, ?_⟩
    rw [setWidth_key, beq_iff_eq]
    simp only [Bool.and_eq_true, Bool.not_eq_eq_eq_not, Bool.not_true, gt_false] at hk
    omega
  · rintro ⟨g, hg, hk⟩
    refine ⟨g, (h.mem g).2 hg, ?_⟩
    rw [setWidth_key, beq_iff_eq] at hk
    simp only [Bool.and_eq_true, Bool.not_eq_eq_eq_not, Bool.not_true, gt_false]
    omega

theorem sorted_run {mtu : Nat} {k : Kind} (once : Bool) (hk : (k = .multiset ∧ once = false) ∨ (k = .set ∧ once = true))
    {ops : List (QOp mtu)} {l out left : List (Frame mtu)} (h : QRun k ops l out left) :
    ∀ q, Sorted l q → out = (wanted once ops q).1 ∧ Sorted left (wanted once ops q).2 := by
  induction h with
  | done l => intro q hs; exact ⟨rfl, hs⟩
  | @push f ops l out left _ ih =>
    intro q hs
    rw [wanted]
    refine ih _ ?_
    rcases hk with ⟨rfl, rfl⟩ | ⟨rfl, rfl⟩
    · exact hs.insert f
    · simp only [Kind.insert, Bool.true_and]
      rw [equivalent_any hs f]
      split
      · exact hs
      · exact hs.insert f
  | @pop f ops l rest out left ht _ ih =>
    intro q hs
    have ht : l = f :: rest := by rcases hk with ⟨rfl, -⟩ | ⟨rfl, -⟩ <;> exact ht
    subst ht
    obtain ⟨h1, h2⟩ := hs.pop
    rw [wanted, h1]
    obtain ⟨a, b⟩ := ih _ h2
    exact ⟨by rw [a], b⟩
  | empty _ ih =>
    intro q hs
    have := hs.nil
    subst this
    rw [wanted, (winners_nil _).2 rfl]
    exact ih _ hs

theorem Sorted.empty {mtu : Nat} : Sorted ([] : List (Frame mtu)) [] := ⟨.nil, fun _ => rfl⟩

end Uavcan.Can
