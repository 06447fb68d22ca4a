import Verif.Model.OnTarget
import Verif.Lemmas.CoreClock
import Verif.Lemmas.Serial
import Verif.Props.TestSys

/-!
# Lemmas about the on-target test program
-/

namespace Uavcan.TestSys

theorem transmit_string_sent (u : Uart) (fuel : Nat) (str : Nat → Byte) (n : Nat) (hn : str n = 0#8) (h32 : n < 2 ^ 32)
    (hne : ∀ i, i < n → str i ≠ 0#8) : ∀ k i s s', i + k = n →
    transmit_string u fuel str (k + 1) (BitVec.ofNat 32 i) s = some s' →
    sent s'.log = sent s.log ++ (List.range' i k).map str ∧ received s'.log = received s.log ∧
      (NoOverrun s.log → NoOverrun s'.log) := by
  intro k
  induction k with
  | zero =>
    intro i s s' hi h
    unfold transmit_string at h
    have : (BitVec.ofNat 32 i).toNat = n := by rw [BitVec.toNat_ofNat, Nat.mod_eq_of_lt (by omega)]; omega
    rw [this, hn, if_neg (by simp)] at h
    injection h with h
    subst h
    exact ⟨by simp, rfl, id⟩
  | succ k ih =>
    intro i s s' hi h
    unfold transmit_string at h
    have hto : (BitVec.ofNat 32 i).toNat = i := by rw [BitVec.toNat_ofNat, Nat.mod_eq_of_lt (by omega)]
    rw [hto, if_pos (hne i (by omega))] at h
    obtain ⟨s1, h1, h2⟩ := Option.bind_eq_some_iff.1 h
    rw [show BitVec.ofNat 32 i + 1#32 = BitVec.ofNat 32 (i + 1) by rw [BitVec.ofNat_add]] at h2
    obtain ⟨ha, hb, hc⟩ := ih (i + 1) s1 s' (by omega) h2
    obtain ⟨-, vs, v, hl, hv⟩ := transmit_char_spec u fuel _ _ _ h1
    refine ⟨?_, ?_, fun hn => hc (by rw [hl]; exact noOverrun_append _ _ _ _ hn hv)⟩
    · rw [ha, transmit_char_sent u fuel _ _ _ h1, range'_bytes]; simp
    · rw [hb, hl, received_append, received_append, received_stats]; simp [received]

theorem transmit_char_received (u : Uart) (fuel : Nat) (c : Byte) (s s' : State) (h : transmit_char u fuel c s = some s') :
    received s'.log = received s.log ∧ (NoOverrun s.log → NoOverrun s'.log) := by
  obtain ⟨-, vs, v, hl, hv⟩ := transmit_char_spec u fuel _ _ _ h
  refine ⟨?_, fun hn => by rw [hl]; exact noOverrun_append _ _ _ _ hn hv⟩
  rw [hl, received_append, received_append, received_stats]; simp [received]

theorem transmit_len_sent (u : Uart) (fuel : Nat) (b : Nat → Byte) : ∀ k i s s', transmit_string_len u fuel b k i s = some s' →
    sent s'.log = sent s.log ++ (List.range' i k).map b ∧ received s'.log = received s.log ∧
      (NoOverrun s.log → NoOverrun s'.log) := by
  intro k
  induction k with
  | zero => intro i s s' h; injection h with h; subst h; exact ⟨by simp, rfl, id⟩
  | succ k ih =>
    intro i s s' h
    unfold transmit_string_len at h
    obtain ⟨s1, h1, h2⟩ := Option.bind_eq_some_iff.1 h
    obtain ⟨ha, hb, hc⟩ := ih _ _ _ h2
    obtain ⟨hd, he⟩ := transmit_char_received u fuel _ _ _ h1
    exact ⟨by rw [ha, transmit_char_sent u fuel _ _ _ h1, range'_bytes]; simp, by rw [hb, hd], fun hn => hc (he hn)⟩

theorem write_sent (u : Uart) (fuel : Nat) (b : Nat → Byte) (count : Nat) (s s' : State) (r : Int)
    (h : write u fuel (some b) count s = some (r, s')) :
    sent s'.log = sent s.log ++ (List.range count).map b ∧ received s'.log = received s.log ∧
      (NoOverrun s.log → NoOverrun s'.log) := by
  unfold write at h
  simp only at h
  split at h
  · rename_i hc
    injection h with h
    injection h with _ h
    subst h
    subst hc
    exact ⟨by simp, rfl, id⟩
  · obtain ⟨s1, h1, h2⟩ := Option.bind_eq_some_iff.1 h
    injection h2 with h2
    injection h2 with _ h2
    subst h2
    rw [List.range_eq_range']
    exact transmit_len_sent u fuel b _ _ _ _ h1

theorem write_mono (u : Uart) (f g : Nat) (b : Nat → Byte) (count : Nat) (s : State) (r : Int × State) (hle : f ≤ g)
    (h : write u f (some b) count s = some r) : write u g (some b) count s = some r := by
  unfold write at h ⊢
  simp only at h ⊢
  split at h
  · rename_i hc; rw [if_pos hc]; exact h
  · rename_i hc
    rw [if_neg hc]
    obtain ⟨s1, h1, h2⟩ := Option.bind_eq_some_iff.1 h
    rw [transmit_len_mono u f g b hle _ _ _ _ h1]
    exact h2

theorem receive_char_mono (u : Uart) (f g : Nat) (s : State) (r : Byte × State) (hle : f ≤ g)
    (h : receive_char u f s = some r) : receive_char u g s = some r := by
  unfold receive_char at h ⊢
  obtain ⟨s1, h1, h2⟩ := Option.bind_eq_some_iff.1 h
  rw [waitFor_mono u _ _ _ _ _ _ hle h1]
  exact h2

theorem echo_mono (u : Uart) (f g : Nat) (s s' : State) (hle : f ≤ g)
    (h : receive_and_echo_char u f s = some s') : receive_and_echo_char u g s = some s' := by
  unfold receive_and_echo_char at h ⊢
  obtain ⟨⟨c, s1⟩, h1, h⟩ := Option.bind_eq_some_iff.1 h
  obtain ⟨s2, h2, h⟩ := Option.bind_eq_some_iff.1 h
  obtain ⟨s3, h3, h4⟩ := Option.bind_eq_some_iff.1 h
  rw [receive_char_mono u f g _ _ hle h1]
  simp only [Option.bind_eq_bind, Option.bind_some]
  rw [transmit_char_mono u f g _ _ _ hle h2]
  simp only [Option.bind_some]
  rw [transmit_char_mono u f g _ _ _ hle h3]
  simp only [Option.bind_some]
  exact transmit_char_mono u f g _ _ _ hle h4

/-- Characters keep coming. -/
def Uart.Receives (u : Uart) : Prop := ∀ n, ∃ m, n ≤ m ∧ (u.stat m).getLsbD 21 = true

theorem echo_ends (u : Uart) (hu : u.Sends) (hr : u.Receives) (s : State) : ∃ fuel s', receive_and_echo_char u fuel s = some s' := by
  obtain ⟨m, hm, hb⟩ := hr (reads s.log)
  obtain ⟨s1, h1⟩ := waitFor_ends u 0x200000#32 21 (by decide) (by decide) (m - reads s.log) s ⟨m, by omega, hb⟩
  have hrc : ∃ r : Byte × State, receive_char u (m - reads s.log + 1) s = some r := by
    unfold receive_char
    rw [h1]
    exact ⟨_, rfl⟩
  obtain ⟨⟨c, s2⟩, h2⟩ := hrc
  obtain ⟨f3, hf3⟩ := transmit_char_ends u hu c s2
  obtain ⟨s3, h3⟩ := hf3 f3 (Nat.le_refl _)
  obtain ⟨f4, hf4⟩ := transmit_char_ends u hu 10#8 s3
  obtain ⟨s4, h4⟩ := hf4 f4 (Nat.le_refl _)
  obtain ⟨f5, hf5⟩ := transmit_char_ends u hu 13#8 s4
  obtain ⟨s5, h5⟩ := hf5 f5 (Nat.le_refl _)
  refine ⟨(m - reads s.log + 1) + f3 + f4 + f5, s5, ?_⟩
  unfold receive_and_echo_char
  rw [receive_char_mono u _ _ _ _ (by omega) h2]
  simp only [Option.bind_eq_bind, Option.bind_some]
  rw [transmit_char_mono u f3 _ _ _ _ (by omega) h3]
  simp only [Option.bind_some]
  rw [transmit_char_mono u f4 _ _ _ _ (by omega) h4]
  simp only [Option.bind_some]
  exact transmit_char_mono u f5 _ _ _ _ (by omega) h5

end Uavcan.TestSys

namespace Uavcan.OnTarget

open Uavcan.CoreClock Uavcan.CoreClock.Spec Uavcan.TestSys Uavcan.Serial

theorem setup_form {t t' : Target} (h : setup t = some t') : ∃ c1 c2 c3, SOSC_init_8MHz t.clk = some c1 ∧
    SPLL_init_160MHz c1 = some c2 ∧ NormalRUNmode_80MHz c2 = some c3 ∧
    t' = LPUART1_init (PORT_init { t with wdog := t.wdog ++ Boot.WDOG_disable, clk := c3 }) := by
  unfold setup at h
  obtain ⟨c1, h1, h⟩ := Option.bind_eq_some_iff.1 h
  obtain ⟨c2, h2, h⟩ := Option.bind_eq_some_iff.1 h
  obtain ⟨c3, h3, h⟩ := Option.bind_eq_some_iff.1 h
  injection h with h
  exact ⟨c1, c2, c3, h1, h2, h3, h.symm⟩

/-- Everything after the set-up goes through the serial port. -/
structure Same (t t' : Target) : Prop where
  clk : t'.clk = t.clk
  pccPORTC : t'.pccPORTC = t.pccPORTC
  pccLPUART1 : t'.pccLPUART1 = t.pccLPUART1
  PCR6 : t'.PCR6 = t.PCR6
  PCR7 : t'.PCR7 = t.PCR7
  BAUD : t'.BAUD = t.BAUD
  CTRL : t'.CTRL = t.CTRL
  wdog : t'.wdog = t.wdog
  SystemCoreClock : t'.SystemCoreClock = t.SystemCoreClock
  pccWrites : t'.pccWrites = t.pccWrites
  touched : ∀ x ∈ t'.touched, x ∈ t.touched ∨ x = (.lpuart1, t.pccLPUART1)

theorem Same.refl (t : Target) : Same t t := ⟨rfl, rfl, rfl, rfl, rfl, rfl, rfl, rfl, rfl, rfl, fun _ h => .inl h⟩

theorem Same.trans {a b c : Target} (h : Same a b) (k : Same b c) : Same a c where
  clk := k.clk.trans h.clk
  pccPORTC := k.pccPORTC.trans h.pccPORTC
  pccLPUART1 := k.pccLPUART1.trans h.pccLPUART1
  PCR6 := k.PCR6.trans h.PCR6
  PCR7 := k.PCR7.trans h.PCR7
  BAUD := k.BAUD.trans h.BAUD
  CTRL := k.CTRL.trans h.CTRL
  wdog := k.wdog.trans h.wdog
  SystemCoreClock := k.SystemCoreClock.trans h.SystemCoreClock
  pccWrites := k.pccWrites.trans h.pccWrites
  touched := by
    intro x hx
    rcases k.touched x hx with h1 | h1
    · exact h.touched x h1
    · right; rw [h1, h.pccLPUART1]

theorem serial_form {t t' : Target} {f : TestSys.State → Option TestSys.State} (h : t.serial f = some t') :
    Same t t' ∧ f t.uart = some t'.uart := by
  unfold Target.serial at h
  obtain ⟨s, hs, rfl⟩ := Option.map_eq_some_iff.1 h
  refine ⟨⟨rfl, rfl, rfl, rfl, rfl, rfl, rfl, rfl, rfl, rfl, ?_⟩, hs⟩
  intro x hx
  rcases List.mem_append.1 hx with h | h
  · exact .inl h
  · right; simpa using h

/-- What a stretch of the program adds to what is sent and received. -/
structure Adds (t t' : Target) (out inp : List Byte) : Prop where
  same : Same t t'
  sent : sent t'.uart.log = sent t.uart.log ++ out
  received : received t'.uart.log = received t.uart.log ++ inp
  overrun : NoOverrun t.uart.log → NoOverrun t'.uart.log

theorem Adds.refl (t : Target) : Adds t t [] [] := ⟨.refl t, by simp, by simp, id⟩

theorem Adds.trans {a b c : Target} {o i o' i' : List Byte} (h : Adds a b o i) (k : Adds b c o' i') : Adds a c (o ++ o') (i ++ i') where
  same := h.same.trans k.same
  sent := by rw [k.sent, h.sent, List.append_assoc]
  received := by rw [k.received, h.received, List.append_assoc]
  overrun := fun hn => k.overrun (h.overrun hn)

theorem cstr_range (b : List Byte) : (List.range b.length).map (cstr b) = b := by
  apply List.ext_getElem
  · simp
  · intro i h1 h2
    simp [cstr, h2]

theorem string_adds {u : Uart} {fuel : Nat} {t t' : Target} {b : List Byte} (h0 : 0#8 ∉ b) (h32 : b.length < 2 ^ 32)
    (h : t.serial (transmit_string u fuel (cstr b) (b.length + 1) 0#32) = some t') : Adds t t' b [] := by
  obtain ⟨hs, hu⟩ := serial_form h
  have hne : ∀ i, i < b.length → cstr b i ≠ 0#8 := by
    intro i hi he
    apply h0
    unfold cstr at he
    rw [List.getD_eq_getElem?_getD, List.getElem?_eq_getElem hi] at he
    rw [← he]
    exact List.getElem_mem hi
  obtain ⟨ha, hb, hc⟩ := transmit_string_sent u fuel (cstr b) b.length (by simp [cstr]) h32 hne b.length 0 _ _ (by omega) hu
  rw [← List.range_eq_range', cstr_range] at ha
  exact ⟨hs, ha, by rw [hb]; simp, hc⟩

theorem writeAll_adds (u : Uart) (fuel : Nat) : ∀ (bs : List (List Byte)) (t t' : Target), writeAll u fuel bs t = some t' →
    Adds t t' bs.flatten [] := by
  intro bs
  induction bs with
  | nil => intro t t' h; injection h with h; subst h; exact .refl t
  | cons b bs ih =>
    intro t t' h
    unfold writeAll at h
    obtain ⟨t1, h1, h2⟩ := Option.bind_eq_some_iff.1 h
    obtain ⟨hs, hu⟩ := serial_form h1
    obtain ⟨⟨r, s⟩, hw, he⟩ := Option.map_eq_some_iff.1 hu
    obtain ⟨ha, hb, hc⟩ := write_sent u fuel _ _ _ _ _ hw
    rw [cstr_range] at ha
    simp only at he
    subst he
    have k : Adds t t1 b [] := ⟨hs, ha, by rw [hb]; simp, hc⟩
    exact k.trans (ih _ _ h2)

theorem echoLoop_adds (u : Uart) (fuel : Nat) (r : BitVec 32) : ∀ (n : Nat) (t t' : Target), echoLoop u fuel r n t = some t' →
    ∃ cs : List Byte, cs.length = n ∧ Adds t t' (cs.flatMap fun c => [r.truncate 8, c, 10#8, 13#8]) cs := by
  intro n
  induction n with
  | zero => intro t t' h; injection h with h; subst h; exact ⟨[], rfl, .refl t⟩
  | succ n ih =>
    intro t t' h
    unfold echoLoop at h
    obtain ⟨t1, h1, h⟩ := Option.bind_eq_some_iff.1 h
    obtain ⟨t2, h2, h3⟩ := Option.bind_eq_some_iff.1 h
    obtain ⟨cs, hl, k3⟩ := ih _ _ h3
    obtain ⟨s1, u1⟩ := serial_form h1
    obtain ⟨s2, u2⟩ := serial_form h2
    obtain ⟨ra, rb⟩ := transmit_char_received u fuel _ _ _ u1
    have k1 : Adds t t1 [r.truncate 8] [] := ⟨s1, transmit_char_sent u fuel _ _ _ u1, by rw [ra]; simp, rb⟩
    obtain ⟨c, hc1, hc2⟩ := C64_echo u fuel _ _ u2
    have k2 : Adds t1 t2 [c, 10#8, 13#8] [c] := ⟨s2, hc2, hc1, C64_echo_no_overrun u fuel _ _ u2⟩
    refine ⟨c :: cs, by rw [List.length_cons, hl], ?_⟩
    have := (k1.trans k2).trans k3
    simpa using this

/-! ## Fuel -/

theorem serial_mono {t t' : Target} {f g : TestSys.State → Option TestSys.State}
    (hfg : ∀ s s', f s = some s' → g s = some s') (h : t.serial f = some t') : t.serial g = some t' := by
  unfold Target.serial at h ⊢
  obtain ⟨s, hs, rfl⟩ := Option.map_eq_some_iff.1 h
  rw [hfg _ _ hs]
  rfl

theorem writeAll_mono (u : Uart) (f g : Nat) (hle : f ≤ g) : ∀ (bs : List (List Byte)) (t t' : Target),
    writeAll u f bs t = some t' → writeAll u g bs t = some t' := by
  intro bs
  induction bs with
  | nil => intro t t' h; exact h
  | cons b bs ih =>
    intro t t' h
    unfold writeAll at h ⊢
    obtain ⟨t1, h1, h2⟩ := Option.bind_eq_some_iff.1 h
    have := serial_mono (g := fun s => (TestSys.write u g (some (cstr b)) b.length s).map (·.2)) (by
      intro s s' hs
      obtain ⟨r, hr, rfl⟩ := Option.map_eq_some_iff.1 hs
      rw [write_mono u f g _ _ _ _ hle hr]
      rfl) h1
    rw [this]
    exact ih _ _ h2

theorem echoLoop_mono (u : Uart) (f g : Nat) (hle : f ≤ g) (r : BitVec 32) : ∀ (n : Nat) (t t' : Target),
    echoLoop u f r n t = some t' → echoLoop u g r n t = some t' := by
  intro n
  induction n with
  | zero => intro t t' h; exact h
  | succ n ih =>
    intro t t' h
    unfold echoLoop at h ⊢
    obtain ⟨t1, h1, h⟩ := Option.bind_eq_some_iff.1 h
    obtain ⟨t2, h2, h3⟩ := Option.bind_eq_some_iff.1 h
    rw [serial_mono (fun s s' => transmit_char_mono u f g _ _ _ hle) h1]
    simp only [Option.bind_eq_bind, Option.bind_some]
    rw [serial_mono (fun s s' => echo_mono u f g _ _ hle) h2]
    exact ih _ _ h3

theorem writeAll_ends (u : Uart) (hu : u.Sends) : ∀ (bs : List (List Byte)) (t : Target), ∃ fuel t', writeAll u fuel bs t = some t' := by
  intro bs
  induction bs with
  | nil => intro t; exact ⟨0, t, rfl⟩
  | cons b bs ih =>
    intro t
    have hw : ∃ f r, TestSys.write u f (some (cstr b)) b.length t.uart = some r := by
      by_cases hb : b.length = 0
      · exact ⟨0, _, by rw [hb]; rfl⟩
      · obtain ⟨f, s', h, _⟩ := (C57_write_partial u hu (cstr b) b.length t.uart).1 (by omega)
        exact ⟨f, _, h⟩
    obtain ⟨f, r, hr⟩ := hw
    obtain ⟨g, t', h⟩ := ih { t.lpuart1 with uart := r.2 }
    refine ⟨f + g, t', ?_⟩
    unfold writeAll Target.serial
    simp only
    rw [write_mono u f (f + g) _ _ _ _ (by omega) hr]
    exact writeAll_mono u g (f + g) (by omega) _ _ _ h

theorem echoLoop_ends (u : Uart) (hu : u.Sends) (hr : u.Receives) (r : BitVec 32) : ∀ (n : Nat) (t : Target),
    ∃ fuel t', echoLoop u fuel r n t = some t' := by
  intro n
  induction n with
  | zero => intro t; exact ⟨0, t, rfl⟩
  | succ n ih =>
    intro t
    obtain ⟨f1, hf1⟩ := transmit_char_ends u hu (r.truncate 8) t.uart
    obtain ⟨s1, h1⟩ := hf1 f1 (Nat.le_refl _)
    obtain ⟨f2, s2, h2⟩ := echo_ends u hu hr s1
    obtain ⟨f3, t', h3⟩ := ih { ({ t.lpuart1 with uart := s1 } : Target).lpuart1 with uart := s2 }
    refine ⟨f1 + f2 + f3, t', ?_⟩
    unfold echoLoop Target.serial
    rw [transmit_char_mono u f1 (f1 + f2 + f3) _ _ _ (by omega) h1]
    simp only [Option.map_some, Option.bind_eq_bind, Option.bind_some]
    have : receive_and_echo_char u (f1 + f2 + f3) s1 = some s2 := echo_mono u f2 _ _ _ (by omega) h2
    rw [this]
    exact echoLoop_mono u f3 _ (by omega) r _ _ _ h3

theorem string_ends (u : Uart) (hu : u.Sends) (b : List Byte) (h0 : 0#8 ∉ b) (h32 : b.length < 2 ^ 32) (t : Target) :
    ∃ fuel t', ∀ g, fuel ≤ g → t.serial (transmit_string u g (cstr b) (b.length + 1) 0#32) = some t' := by
  have hne : ∀ i, i < b.length → cstr b i ≠ 0#8 := by
    intro i hi he
    apply h0
    unfold cstr at he
    rw [List.getD_eq_getElem?_getD, List.getElem?_eq_getElem hi] at he
    rw [← he]
    exact List.getElem_mem hi
  obtain ⟨fuel, s', h, _⟩ := C64_transmit_string u hu (cstr b) b.length (by simp [cstr]) h32 hne t.uart
  refine ⟨fuel, { t.lpuart1 with uart := s' }, fun g hg => ?_⟩
  unfold Target.serial
  rw [transmit_string_mono u fuel g _ hg _ _ _ _ h]
  rfl

end Uavcan.OnTarget
