import Verif.Spec.Boot
import Verif.Props.Startup

/-!
# Lemmas about the reset code
-/

namespace Uavcan.Boot

open Uavcan.Startup Uavcan.CoreClock.Spec

/-! ## The vector table -/

/-- The operands that are not handlers. -/
theorem operands_known : (isr_vector.all fun n =>
    n = "0" || n = "0xFFFFFFFF" || n = "__StackTop" || n = "Reset_Handler" || n = "DefaultISR" || weakHandlers.contains n) = true := by
  decide +kernel

theorem word_isSome (y : Symbols) (st : Nat) (n : String) (h : n ∈ isr_vector) : (y.word st n).isSome := by
  have := List.all_eq_true.1 operands_known n h
  simp only [Bool.or_eq_true, decide_eq_true_eq, List.contains_iff_mem] at this
  unfold Symbols.word
  split
  · rfl
  split
  · rfl
  split
  · rfl
  unfold Symbols.value
  split
  · rfl
  split
  · rfl
  rw [if_pos]
  · rfl
  · grind

theorem mapM_some {α β : Type} (f : α → Option β) (l : List α) (h : ∀ a ∈ l, (f a).isSome) :
    ∃ ws, l.mapM f = some ws ∧ ws.length = l.length ∧ ∀ k : Nat, ws[k]? = l[k]?.bind f := by
  induction l with
  | nil => exact ⟨[], rfl, rfl, fun k => by simp⟩
  | cons a l ih =>
    obtain ⟨ws, e, hlen, hk⟩ := ih (fun b hb => h b (List.mem_cons_of_mem _ hb))
    obtain ⟨w, hw⟩ := Option.isSome_iff_exists.1 (h a (List.mem_cons_self ..))
    refine ⟨w :: ws, ?_, congrArg Nat.succ hlen, ?_⟩
    · rw [List.mapM_cons, hw, e]; rfl
    · intro k
      cases k with
      | zero => simp [hw]
      | succ k => simpa using hk k

theorem isr_vector_length : isr_vector.length = 256 := by decide +kernel

theorem vectorWords_some (y : Symbols) (st : Nat) :
    ∃ ws, vectorWords y st = some ws ∧ ws.length = 256 ∧ ∀ k : Nat, ws[k]? = isr_vector[k]?.bind (y.word st) := by
  rw [← isr_vector_length]
  exact mapM_some _ _ (word_isSome y st)

theorem wordsBytes_get (ws : List (BitVec 32)) (n : Nat) (w : BitVec 32) (h : ws[n]? = some w) :
    (wordsBytes ws)[4 * n]? = some (w.extractLsb' 0 8) ∧ (wordsBytes ws)[4 * n + 1]? = some (w.extractLsb' 8 8) ∧
    (wordsBytes ws)[4 * n + 2]? = some (w.extractLsb' 16 8) ∧ (wordsBytes ws)[4 * n + 3]? = some (w.extractLsb' 24 8) := by
  induction ws generalizing n with
  | nil => cases h
  | cons v ws ih =>
    have hc : wordsBytes (v :: ws) = v.extractLsb' 0 8 :: v.extractLsb' 8 8 :: v.extractLsb' 16 8 :: v.extractLsb' 24 8 ::
      wordsBytes ws := rfl
    cases n with
    | zero =>
      obtain rfl : v = w := by simpa using h
      rw [hc]; exact ⟨rfl, rfl, rfl, rfl⟩
    | succ n =>
      have h' := ih n (by simpa using h)
      have e0 : 4 * (n + 1) = 4 * n + 1 + 1 + 1 + 1 := by omega
      have e1 : 4 * (n + 1) + 1 = 4 * n + 1 + 1 + 1 + 1 + 1 := by omega
      have e2 : 4 * (n + 1) + 2 = 4 * n + 2 + 1 + 1 + 1 + 1 := by omega
      have e3 : 4 * (n + 1) + 3 = 4 * n + 3 + 1 + 1 + 1 + 1 := by omega
      rw [hc, e3, e2, e1, e0]
      simp only [List.getElem?_cons_succ]
      exact h'

theorem word_of_bytes (w : BitVec 32) :
    (w.extractLsb' 0 8).toNat + 2 ^ 8 * (w.extractLsb' 8 8).toNat + 2 ^ 16 * (w.extractLsb' 16 8).toNat +
      2 ^ 24 * (w.extractLsb' 24 8).toNat = w.toNat := by
  simp only [BitVec.extractLsb'_toNat, Nat.shiftRight_eq_div_pow]
  have := w.isLt
  omega

/-- A table of words in memory: what is fetched is the word. -/
theorem wordAt_of_bytes (m : Mem) (a : Nat) (ws : List (BitVec 32)) (n : Nat) (w : BitVec 32) (hw : ws[n]? = some w)
    (hlen : 4 * n + 4 ≤ 1024) (hm : ∀ k, k < 1024 → some (m (a + k)) = (wordsBytes ws)[k]?) :
    wordAt m (a + 4 * n) = w.toNat := by
  obtain ⟨h0, h1, h2, h3⟩ := wordsBytes_get ws n w hw
  have g0 := hm (4 * n) (by omega)
  have g1 := hm (4 * n + 1) (by omega)
  have g2 := hm (4 * n + 2) (by omega)
  have g3 := hm (4 * n + 3) (by omega)
  rw [h0] at g0; rw [h1] at g1; rw [h2] at g2; rw [h3] at g3
  rw [← word_of_bytes w]
  unfold wordAt
  rw [show a + 4 * n + 1 = a + (4 * n + 1) from by omega, show a + 4 * n + 2 = a + (4 * n + 2) from by omega,
    show a + 4 * n + 3 = a + (4 * n + 3) from by omega,
    Option.some.inj g0, Option.some.inj g1, Option.some.inj g2, Option.some.inj g3]

/-- The handlers of the chip's interrupts are where `IRQn_Type` says. -/
theorem irq_table : (irqNumbers.all fun x =>
    isr_vector[16 + x.2]?.map String.toList == some (x.1.toList.dropLast ++ "Handler".toList) &&
      weakHandlers.any (fun n => some n == isr_vector[16 + x.2]?) && x.2 < 163) = true := by
  decide +kernel

theorem irq_entry (stem : String) (n : Nat) (h : (stem ++ "_IRQn", n) ∈ irqNumbers) :
    isr_vector[16 + n]? = some (stem ++ "_IRQHandler") ∧ stem ++ "_IRQHandler" ∈ weakHandlers ∧ n < 163 := by
  have := List.all_eq_true.1 irq_table _ h
  simp only [Bool.and_eq_true, beq_iff_eq, decide_eq_true_eq] at this
  obtain ⟨⟨h1, h2⟩, h3⟩ := this
  have hl : (stem ++ "_IRQn").toList.dropLast ++ "Handler".toList = (stem ++ "_IRQHandler").toList := by
    simp only [String.toList_append]
    rw [List.dropLast_append_of_ne_nil (by decide), List.append_assoc]
    rfl
  rw [hl] at h1
  cases he : isr_vector[16 + n]? with
  | none => rw [he] at h1; cases h1
  | some x =>
    rw [he] at h1 h2
    have hx : x = stem ++ "_IRQHandler" := String.toList_injective (Option.some.inj h1)
    subst hx
    refine ⟨rfl, ?_, h3⟩
    obtain ⟨y, hy, hxy⟩ := List.any_eq_true.1 h2
    rw [beq_iff_eq] at hxy
    rw [← Option.some.inj hxy]; exact hy

/-- The handlers of the core's exceptions are where the architecture wants them. -/
theorem core_table : (cmsisExceptions.all fun x =>
    isr_vector[x.2]? == some x.1 && weakHandlers.contains x.1 && x.2 < 16) = true := by
  decide +kernel

theorem core_entry (name : String) (n : Nat) (h : (name, n) ∈ cmsisExceptions) :
    isr_vector[n]? = some name ∧ name ∈ weakHandlers ∧ n < 16 := by
  have := List.all_eq_true.1 core_table _ h
  simp only [Bool.and_eq_true, beq_iff_eq, decide_eq_true_eq, List.contains_iff_mem] at this
  exact ⟨this.1.1, this.1.2, this.2⟩

/-- The numbers that are not used. -/
def unused : List Nat := [7, 8, 9, 10, 13]

/-- Everything else is a handler, or the default. -/
theorem all_table : ((List.range 255).all fun n =>
    n < 2 || unused.contains n || isr_vector[n]? == some "DefaultISR" ||
      weakHandlers.any (fun m => isr_vector[n]? == some m)) = true := by
  decide +kernel

theorem all_entry (n : Nat) (h2 : 2 ≤ n) (h255 : n < 255) (hu : n ∉ unused) :
    isr_vector[n]? = some "DefaultISR" ∨ ∃ m, isr_vector[n]? = some m ∧ m ∈ weakHandlers := by
  have := List.all_eq_true.1 all_table n (List.mem_range.2 h255)
  simp only [Bool.or_eq_true, beq_iff_eq, decide_eq_true_eq, List.contains_iff_mem, List.any_eq_true] at this
  rcases this with ((h | h) | h) | ⟨m, h1, h3⟩
  · omega
  · exact absurd h hu
  · exact .inl h
  · exact .inr ⟨m, h3, h1⟩

/-- No handler has the name of something else. -/
theorem weak_names : (weakHandlers.all fun n =>
    n != "0" && n != "0xFFFFFFFF" && n != "__StackTop" && n != "Reset_Handler" && n != "DefaultISR") = true := by
  decide +kernel

theorem word_of_weak (y : Symbols) (st : Nat) (n : String) (h : n ∈ weakHandlers) :
    y.word st n = some ((y.defs n).getD y.defaultISR) := by
  have := List.all_eq_true.1 weak_names n h
  simp only [Bool.and_eq_true, bne_iff_ne] at this
  obtain ⟨⟨⟨⟨h1, h2⟩, h3⟩, h4⟩, h5⟩ := this
  unfold Symbols.word Symbols.value
  rw [if_neg h1, if_neg h2, if_neg h3]
  cases y.defs n with
  | some a => rfl
  | none =>
    show (if n = "Reset_Handler" then some y.reset
      else if n = "DefaultISR" ∨ n ∈ weakHandlers then some y.defaultISR else none) = _
    rw [if_neg h4, if_pos (.inr h)]; rfl

theorem handles_getD (y : Symbols) (n : String) : Handles y n ((y.defs n).getD y.defaultISR).toNat := by
  unfold Handles
  cases y.defs n <;> rfl

/-! ## Where the table is -/

/-- In every program the linker accepts, the table in use is at the start of the RAM or of the flash. -/
theorem vectorRam_eq (p : Program) (hp : p.Aligned) (i : Image) (h : link p = some i) :
    i.layout.vectorRam = if p.flashVectors then 0 else 0x1FFE0000 := by
  obtain ⟨f1, f2, f3, f4, f5, rfl⟩ := link_facts h
  cases hf : p.flashVectors with
  | true => simp [interruptsOrigin]
  | false =>
    simp only [Bool.false_eq_true, if_false]
    obtain ⟨k, hk⟩ := hp.interruptsRam
    have hpos : 0 < p.interruptsRam.align := hp.interruptsRam.pos
    have hend : p.ramStart + 0x400 ≤ p.ramEnd := by
      have := le_alignUp 4 (p.ramStart + p.interruptsRam.size + 0x400) (by decide)
      unfold Program.ramEnd
      rw [hf]
      simp only [Bool.false_eq_true, if_false]
      omega
    have hdvd : 4 ∣ p.ramStart := dvd_alignUp 4 _
    have hre : 4 ∣ p.ramEnd := dvd_alignUp 4 _
    have hd := place_spec hp.data hre
    have hc := place_spec hp.code hd.2.2.2.2.1
    have hb := place_spec hp.bss hc.2.2.2.2.1
    have hlim : p.bssPlace.2 ≤ 0x20000000 := f3
    have hle : p.ramEnd ≤ p.bssPlace.2 := by
      have h1 := hd.2.1; have h2 := hd.2.2.1; have h3 := hc.2.1; have h4 := hc.2.2.1; have h5 := hb.2.1; have h6 := hb.2.2.1
      show _ ≤ (place (place (place p.ramEnd p.data).2 p.code).2 p.bss).2
      omega
    have hlow : p.ramStart < 0x20000000 := by omega
    by_cases hk17 : k ≤ 17
    · have : p.interruptsRam.align ∣ dataOrigin := by
        rw [hk]
        exact Nat.dvd_trans (Nat.pow_dvd_pow 2 hk17) (by decide)
      show alignUp 4 (alignUp p.interruptsRam.align dataOrigin) = _
      rw [alignUp_of_dvd _ _ hpos this, alignUp_of_dvd _ _ (by decide) (by decide)]
      rfl
    · exfalso
      have h18 : 2 ^ 18 ∣ alignUp p.interruptsRam.align dataOrigin :=
        Nat.dvd_trans (by rw [hk]; exact Nat.pow_dvd_pow 2 (by omega)) (dvd_alignUp _ _)
      have h1 := le_alignUp p.interruptsRam.align dataOrigin hpos
      have h2 : alignUp p.interruptsRam.align dataOrigin ≤ p.ramStart := le_alignUp 4 _ (by decide)
      have h3 : dataOrigin = 0x1FFE0000 := rfl
      omega

/-- What is loaded is below the RAM, the stack is in the upper RAM. -/
theorem load_low (p : Program) (hp : p.Aligned) (i : Image) (h : link p = some i) :
    data2Origin ≤ i.stackLimit ∧ i.dataLoad + p.data.size ≤ dataOrigin ∧ i.codeLoad + p.code.size ≤ dataOrigin ∧
    i.stackTop = 0x2001F000 := by
  obtain ⟨w1, w2, w3, w4, w5, w6, w7, w8, w9, w10, w11, w12, w13, w14⟩ := C61_layout p hp i h
  have hbase : data2Origin ≤ i.heapBase := by
    obtain ⟨f1, f2, f3, f4, f5, rfl⟩ := link_facts h
    have h1 := le_alignUp p.custom.align data2Origin hp.custom.pos
    have h2 := le_alignUp 8 (alignUp p.custom.align data2Origin + p.custom.size) (by decide)
    show data2Origin ≤ alignUp 8 (alignUp p.custom.align data2Origin + p.custom.size)
    omega
  have hsizes : i.layout.dataRom ≤ textEnd ∧ i.layout.codeRom = i.layout.dataRom + i.layout.dataSize ∧
      i.layout.dataSize + i.layout.codeSize ≤ 0x20000000 - 0x1FFE0000 ∧ i.stackTop = 0x2001F000 := by
    obtain ⟨f1, f2, f3, f4, f5, rfl⟩ := link_facts h
    have hdo : dataOrigin ≤ p.ramStart := by
      have h1 := le_alignUp p.interruptsRam.align dataOrigin hp.interruptsRam.pos
      have h2 : alignUp p.interruptsRam.align dataOrigin ≤ p.ramStart := le_alignUp 4 _ (by decide)
      omega
    have hrs : p.ramStart ≤ p.ramEnd := by
      have := le_alignUp 4 (p.ramStart + p.interruptsRam.size + (if p.flashVectors then 0 else 0x400)) (by decide)
      show _ ≤ alignUp 4 (p.ramStart + p.interruptsRam.size + (if p.flashVectors then 0 else 0x400))
      omega
    have hre : 4 ∣ p.ramEnd := dvd_alignUp 4 _
    have hd := place_spec hp.data hre
    have hc := place_spec hp.code hd.2.2.2.2.1
    have hb := place_spec hp.bss hc.2.2.2.2.1
    have hlim : p.bssPlace.2 ≤ 0x20000000 := f3
    have h1 : p.ramEnd ≤ p.dataPlace.1 := hd.2.1
    have h2 : p.dataPlace.1 + p.data.size ≤ p.dataPlace.2 := hd.2.2.1
    have h3 : p.dataPlace.2 ≤ p.codePlace.1 := hc.2.1
    have h4 : p.codePlace.1 + p.code.size ≤ p.codePlace.2 := hc.2.2.1
    have h5 : p.codePlace.2 ≤ p.bssPlace.1 := hb.2.1
    have h6 : p.bssPlace.1 + p.bss.size ≤ p.bssPlace.2 := hb.2.2.1
    have hde : p.dataEnd = p.etext + (p.dataPlace.2 - p.dataPlace.1) := rfl
    have hce : p.codeEnd = p.dataEnd + (p.codePlace.2 - p.codePlace.1) := rfl
    have h0 : dataOrigin = 0x1FFE0000 := rfl
    refine ⟨f2, ?_, ?_, rfl⟩
    · show p.dataEnd = p.etext + (p.dataEnd - p.etext); omega
    · show (p.dataEnd - p.etext) + (p.codeEnd - p.dataEnd) ≤ _; omega
  have h0 : dataOrigin = 0x1FFE0000 := rfl
  have h1 : textEnd = 0x180000 := rfl
  refine ⟨by omega, ?_, ?_, hsizes.2.2.2⟩
  · rw [w6]; omega
  · rw [w7]; omega

/-! ## Registers -/

theorem getLsbD_of_high {c : BitVec 32} {n : Nat} (h : 32 ≤ n) : c.getLsbD n = false :=
  BitVec.getLsbD_of_ge c n h

theorem fpu_access_rest (v : BitVec 32) (n : Nat) (h : n < 20 ∨ 24 ≤ n) :
    (v ||| (0x300000#32 ||| 0xC00000#32)).getLsbD n = v.getLsbD n := by
  rw [BitVec.getLsbD_or]
  have : (0x300000#32 ||| 0xC00000#32 : BitVec 32).getLsbD n = false := by
    by_cases hn : n < 32
    · have : ∀ m, m < 32 → m < 20 ∨ 24 ≤ m → (0x300000#32 ||| 0xC00000#32 : BitVec 32).getLsbD m = false := by decide
      exact this n hn h
    · exact getLsbD_of_high (by omega)
  rw [this, Bool.or_false]

theorem fpu_lazy_rest (v : BitVec 32) (n : Nat) (h : n ≠ 30) :
    (v &&& ~~~ 0x40000000#32).getLsbD n = v.getLsbD n := by
  rw [BitVec.getLsbD_and]
  by_cases hn : n < 32
  · have : ∀ m, m < 32 → m ≠ 30 → (~~~ 0x40000000#32 : BitVec 32).getLsbD m = true := by decide
    rw [this n hn h, Bool.and_true]
  · rw [getLsbD_of_high (c := v) (by omega), Bool.false_and]

theorem field_eq (v : BitVec 32) (lo w : Nat) : field v lo w = (v.extractLsb' lo w).toNat := by
  unfold field
  rw [BitVec.extractLsb'_toNat, Nat.shiftRight_eq_div_pow]

theorem fpu_lazy (v : BitVec 32) : field (v &&& ~~~ 0x40000000#32) 30 1 = 0 := by
  rw [field_eq, BitVec.extractLsb'_and]
  rw [show (~~~ 0x40000000#32 : BitVec 32).extractLsb' 30 1 = 0#1 from by decide, BitVec.and_zero]
  rfl

theorem fpu_access (v : BitVec 32) : field (v ||| (0x300000#32 ||| 0xC00000#32)) 20 4 = 15 := by
  rw [field_eq, BitVec.extractLsb'_or]
  rw [show (0x300000#32 ||| 0xC00000#32 : BitVec 32).extractLsb' 20 4 = BitVec.allOnes 4 from by decide, BitVec.or_allOnes]
  rfl

theorem callInit_wdog (e : Env) (l : Layout) (c c' : Cpu) (h : callInit e l c = .ok c') : c'.wdog = c.wdog := by
  unfold callInit at h
  cases hi : init_data_bss l { c.sys with mem := e.frame c.sp c.sys.mem } with
  | ub r => rw [hi] at h; cases h
  | ok s => rw [hi] at h; cases h; rfl

theorem and_mask_rest (v m : BitVec 32) (n : Nat) (h : m.getLsbD n = true) : (v &&& m).getLsbD n = v.getLsbD n := by
  rw [BitVec.getLsbD_and, h, Bool.and_true]

end Uavcan.Boot
