import Verif.Spec.SocketGroup
import Verif.Lemmas.SocketCan
import Verif.Lemmas.SatMath
import Verif.Props.Time

namespace Uavcan.SocketCan
open Can Time Spec

/-- The `setsockopt` call made for a descriptor. -/
def filterCall (fc : Option (List Filter)) (num : Nat) (fd : Int) : SetFilter :=
  ⟨fd, ((fc.getD []).take num).map toCanFilter, (8 * num) % 2 ^ 32⟩

/-- The filter array can be read. -/
def GoodFilters (fc : Option (List Filter)) (num : Nat) : Prop :=
  num = 0 ∨ (num < 2 ^ 32 ∧ ∃ l, fc = some l ∧ num ≤ l.length)

theorem configureFilters_ok {fc : Option (List Filter)} {num : Nat} (h : GoodFilters fc num) (fd ans : Int) :
    configureFilters fd fc num ans =
      .ok (if ans ≠ 0 then .UnknownInternalError else .Success, some (filterCall fc num fd)) := by
  rcases h with h | ⟨h1, l, rfl, h2⟩
  · subst h
    simp [configureFilters, filterCall]
  · by_cases h0 : num = 0
    · subst h0; simp [configureFilters, filterCall]
    · have : ¬ l.length < min num (2 ^ 32) := by omega
      have h3 : ¬ 2 ^ 32 ≤ num := by omega
      simp only [configureFilters, h0, reduceCtorEq, false_and, if_false, collectFilters, this, h3, Outcome.ok_bind,
        Outcome.pure_eq, filterCall, Option.getD_some]
      simp [h2]

theorem toCanFilter_bits (f : Filter) :
    (toCanFilter f).can_mask.getLsbD 29 = f.mask.getLsbD 29 ∧ (toCanFilter f).can_id.getLsbD 29 = false ∧
    (toCanFilter f).can_mask.getLsbD 30 = f.mask.getLsbD 30 ∧ (toCanFilter f).can_id.getLsbD 30 = false ∧
    (toCanFilter f).can_mask.getLsbD 31 = true ∧ (toCanFilter f).can_id.getLsbD 31 = true ∧
    ∀ k, k < 29 → (toCanFilter f).can_mask.getLsbD k = f.mask.getLsbD k ∧
      (toCanFilter f).can_id.getLsbD k = f.id.getLsbD k := by
  have he : ∀ k : Fin 32, CAN_EFF_FLAG.getLsbD k = decide (k.val = 31) := by decide
  have e29 := he 29
  have e30 := he 30
  have e31 := he 31
  simp only [toCanFilter, BitVec.getLsbD_or, BitVec.getLsbD_and, maskExt_getLsbD]
  simp only [show ((29 : Fin 32).val) = 29 from rfl, show ((30 : Fin 32).val) = 30 from rfl,
    show ((31 : Fin 32).val) = 31 from rfl] at e29 e30 e31
  refine ⟨?_, ?_, ?_, ?_, ?_, ?_, ?_⟩
  · rw [e29]; simp
  · rw [e29]; simp
  · rw [e30]; simp
  · rw [e30]; simp
  · rw [e31]; simp
  · rw [e31]; simp
  · intro k hk
    have := he ⟨k, by omega⟩
    simp only at this
    rw [this]
    have h31 : k ≠ 31 := by omega
    simp [h31, hk]

/-- What one of the library's filters lets through once installed. -/
theorem passes_toCanFilter (f : Filter) (rx : BitVec 32) :
    (f.mask.getLsbD 29 = false →
      (Passes (toCanFilter f) rx ↔ rx.getLsbD 31 = true ∧ rx.getLsbD 29 = false ∧
        (f.mask.getLsbD 30 = true → rx.getLsbD 30 = false) ∧ Matches f rx)) ∧
    (f.mask.getLsbD 29 = true → Passes (toCanFilter f) rx → IsErr rx = true) := by
  obtain ⟨m29, i29, m30, i30, m31, i31, hk⟩ := toCanFilter_bits f
  constructor
  · intro hm
    simp only [Passes, m29, hm, Bool.false_eq_true, if_false, i29, true_iff]
    constructor
    · rintro ⟨h1, h2⟩
      refine ⟨?_, h1, ?_, ?_⟩
      · have := h2 31 (by decide) m31; rwa [i31] at this
      · intro h; have := h2 30 (by decide) (by rw [m30]; exact h); rwa [i30] at this
      · intro k hk' hmk
        have := h2 k (by omega) (by rw [(hk k hk').1]; exact hmk)
        rwa [(hk k hk').2] at this
    · rintro ⟨h1, h2, h3, h4⟩
      refine ⟨h2, ?_⟩
      intro k hk' hmk
      by_cases k29 : k < 29
      · rw [(hk k k29).2]
        exact h4 k k29 (by rw [← (hk k k29).1]; exact hmk)
      · have : k = 29 ∨ k = 30 ∨ k = 31 := by omega
        rcases this with rfl | rfl | rfl
        · rw [h2, i29]
        · rw [i30]; exact h3 (by rw [← m30]; exact hmk)
        · rw [h1, i31]
  · intro hm h
    simp only [Passes, m29, hm, if_true] at h
    exact h.1

/-- The loop of `reconfigureFilters` from index `i` on, if it stays below 256. -/
theorem reconfLoop_ok {fc : Option (List Filter)} {num : Nat} (h : GoodFilters fc num) (ifs : List Iface)
    (hl : ifs.length ≤ 255) (ans : Nat → Int) (fuel i : Nat) (hi : i ≤ ifs.length) (hf : ifs.length - i < fuel)
    (calls : List SetFilter) :
    ∃ r cs, reconfLoop ifs fc num ans fuel i i calls = some (.ok (r, calls ++ cs)) ∧
      ((r = .Success ∧ (∀ j, i ≤ j → j < ifs.length → ans j = 0) ∧
          cs = (ifs.drop i).map fun s => filterCall fc num s.fd) ∨
       (r = .UnknownInternalError ∧ ∃ k, i ≤ k ∧ k < ifs.length ∧ ans k ≠ 0 ∧ (∀ j, i ≤ j → j < k → ans j = 0) ∧
          cs = ((ifs.take (k + 1)).drop i).map fun s => filterCall fc num s.fd)) := by
  induction fuel generalizing i calls with
  | zero => omega
  | succ fuel ih =>
    by_cases hlt : i < ifs.length
    · have hget : ifs[i]? = some ifs[i] := List.getElem?_eq_getElem hlt
      by_cases ha : ans i = 0
      · have hmod : (i + 1) % 2 ^ 8 = i + 1 := Nat.mod_eq_of_lt (by omega)
        obtain ⟨r, cs, e1, e2⟩ := ih (i + 1) (by omega) (by omega) (calls ++ [filterCall fc num ifs[i].fd])
        refine ⟨r, filterCall fc num ifs[i].fd :: cs, ?_, ?_⟩
        · simp only [reconfLoop, hget, configureFilters_ok h, ha, ne_eq, not_true_eq_false, if_false, hmod]
          simp only [Result.not, Result.code, Option.toList]
          simp [e1]
        · rcases e2 with ⟨a, b, c⟩ | ⟨a, k, b1, b2, b3, b4, b5⟩
          · left
            refine ⟨a, ?_, ?_⟩
            · intro j h1 h2
              by_cases hj : j = i
              · rw [hj]; exact ha
              · exact b j (by omega) h2
            · rw [c, List.drop_eq_getElem_cons hlt]; rfl
          · right
            refine ⟨a, k, by omega, b2, b3, ?_, ?_⟩
            · intro j h1 h2
              by_cases hj : j = i
              · rw [hj]; exact ha
              · exact b4 j (by omega) h2
            · rw [b5, List.drop_eq_getElem_cons (l := ifs.take (k + 1)) (i := i) (by simp; omega)]
              simp
      · refine ⟨.UnknownInternalError, [filterCall fc num ifs[i].fd], ?_, .inr ⟨rfl, i, by omega, hlt, ha, ?_, ?_⟩⟩
        · simp only [reconfLoop, hget, configureFilters_ok h, ha, ne_eq, not_false_eq_true, if_true]
          simp [Result.not, Result.code, Option.toList]
        · intro j h1 h2; omega
        · rw [List.drop_eq_getElem_cons (l := ifs.take (i + 1)) (i := i) (by simp; omega)]
          simp
    · have hi' : i = ifs.length := by omega
      refine ⟨.Success, [], ?_, .inl ⟨rfl, fun j h1 h2 => by omega, ?_⟩⟩
      · simp [reconfLoop, List.getElem?_eq_none (Nat.le_of_not_lt hlt)]
      · rw [List.drop_eq_nil_of_le (by omega)]; rfl

/-- With 256 or more interfaces the loop only ends on an error. -/
theorem reconfLoop_forever {fc : Option (List Filter)} {num : Nat} (h : GoodFilters fc num) (ifs : List Iface)
    (hl : 256 ≤ ifs.length) (ans : Nat → Int) (ha : ∀ k, ans k = 0) (fuel i k : Nat) (hi : i < 256)
    (calls : List SetFilter) : reconfLoop ifs fc num ans fuel i k calls = none := by
  induction fuel generalizing i k calls with
  | zero => rfl
  | succ fuel ih =>
    have hget : ifs[i]? = some ifs[i] := List.getElem?_eq_getElem (by omega)
    simp only [reconfLoop, hget, configureFilters_ok h, ha, ne_eq, not_true_eq_false, if_false]
    simp only [Result.not, Result.code]
    exact ih _ _ (Nat.mod_lt _ (by decide)) _

theorem pollLoop_eq (rs : List (BitVec 16)) :
    (pollLoop rs = .SuccessPartial ↔ ∃ e ∈ rs, Exceptional e) ∧
    (pollLoop rs = .Success ↔ ¬ ∃ e ∈ rs, Exceptional e) := by
  have key : ∀ e : BitVec 16, e &&& (POLLPRI ||| POLLERR ||| POLLHUP ||| POLLNVAL) ≠ 0 ↔ Exceptional e := by
    intro e
    have hm : ∀ i : Fin 16, (POLLPRI ||| POLLERR ||| POLLHUP ||| POLLNVAL).getLsbD i =
        decide (i.val = 1 ∨ i.val = 3 ∨ i.val = 4 ∨ i.val = 5) := by decide
    constructor
    · intro h
      apply Classical.byContradiction
      intro hn
      apply h
      apply BitVec.eq_of_getLsbD_eq
      intro i hi
      simp only [BitVec.getLsbD_and, hm ⟨i, hi⟩]
      simp only [Exceptional, not_or, Bool.not_eq_true] at hn
      by_cases hd : i = 1 ∨ i = 3 ∨ i = 4 ∨ i = 5
      · rcases hd with rfl | rfl | rfl | rfl <;> simp only [hn] <;> simp
      · rw [decide_eq_false hd]; simp
    · intro h h0
      have hb : ∀ i (hi : i < 16), (i = 1 ∨ i = 3 ∨ i = 4 ∨ i = 5) → e.getLsbD i = false := by
        intro i hi hd
        have : (e &&& (POLLPRI ||| POLLERR ||| POLLHUP ||| POLLNVAL)).getLsbD i = false := by rw [h0]; simp
        rw [BitVec.getLsbD_and, hm ⟨i, hi⟩, decide_eq_true hd, Bool.and_true] at this
        exact this
      rcases h with h | h | h | h
      · rw [hb 1 (by decide) (by decide)] at h; cases h
      · rw [hb 3 (by decide) (by decide)] at h; cases h
      · rw [hb 4 (by decide) (by decide)] at h; cases h
      · rw [hb 5 (by decide) (by decide)] at h; cases h
  induction rs with
  | nil => simp [pollLoop]
  | cons r rs ih =>
    simp only [pollLoop, List.mem_cons, exists_eq_or_imp]
    by_cases h : r &&& (POLLPRI ||| POLLERR ||| POLLHUP ||| POLLNVAL) ≠ 0
    · rw [if_pos h]
      simp [(key r).1 h]
    · rw [if_neg h]
      have hn : ¬ Exceptional r := fun hh => h ((key r).2 hh)
      simp only [hn, false_or]
      exact ih

end Uavcan.SocketCan
