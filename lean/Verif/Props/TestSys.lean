import Verif.Model.TestSys

/-!
# C57, C64: system call stubs, serial port
-/

namespace Uavcan.TestSys

/-! ## Specification -/

/-- The bytes sent, in order. -/
def sent (l : List Access) : List Byte := l.filterMap fun | .send b => some b | _ => none

/-- The transmitter has room again and again. -/
def Uart.Sends (u : Uart) : Prop := ∀ n, ∃ m, n ≤ m ∧ (u.stat m).getLsbD 23 = true

/-- The first `n` bytes of a buffer. -/
def firstBytes (b : Nat → Byte) (n : Nat) : List Byte := (List.range n).map b

/-- Bytes are only given to the transmitter directly after it said it has room: no byte is lost. -/
def NoOverrun (l : List Access) : Prop :=
  ∀ pre b post, l = pre ++ Access.send b :: post → ∃ pre' v, pre = pre' ++ [Access.stat v] ∧ v.getLsbD 23 = true

/-- The property as stated in `properties.jsonl`. -/
def C57_Statement : Prop :=
  (∀ (u : Uart), u.Sends → ∀ (b : Nat → Byte) (count : Nat) (s : State), ∃ fuel s',
    write u fuel (some b) count s = some ((count : Int), s') ∧ sent s'.log = sent s.log ++ firstBytes b count) ∧
  (∀ (b : List Byte) (s : State), (getcwd (some b) b.length s).Defined) ∧
  (∀ s, (mkdir s).1 = -1 ∧ (mkdir s).2.errno ≠ 0 ∧ («open» s).1 = -1 ∧ («open» s).2.errno ≠ 0 ∧
    (close s).1 = -1 ∧ (close s).2.errno ≠ 0 ∧ (gettimeofday none s).2.1 = -1 ∧ (gettimeofday none s).2.2.errno ≠ 0)

/-! ## Lemmas -/

theorem mask_bit (v m : BitVec 32) (k : Nat) (hk : k < 32) (hm : m = BitVec.ofNat 32 (2 ^ k)) :
    (v &&& m) >>> k = 0#32 ↔ v.getLsbD k = false := by
  have hbit : ∀ i, m.getLsbD i = decide (i = k) := by
    intro i
    rw [hm, BitVec.getLsbD_ofNat, Nat.testBit_two_pow]
    by_cases h : k = i
    · subst h; simp [hk]
    · simp [h, Ne.symm h]
  constructor
  · intro h
    have h0 : ((v &&& m) >>> k).getLsbD 0 = false := by rw [h]; simp
    rw [BitVec.getLsbD_ushiftRight, BitVec.getLsbD_and, hbit] at h0
    simpa using h0
  · intro h
    apply BitVec.eq_of_getLsbD_eq
    intro i hi
    rw [BitVec.getLsbD_ushiftRight, BitVec.getLsbD_and, hbit]
    by_cases h0 : k + i = k
    · rw [h0, h]; simp
    · have : i ≠ 0 := by omega
      simp [this]

theorem sent_append (a b : List Access) : sent (a ++ b) = sent a ++ sent b := List.filterMap_append ..

theorem reads_append (a b : List Access) : reads (a ++ b) = reads a + reads b := by
  unfold reads; rw [List.filter_append, List.length_append]

/-- What waiting adds to the log: reads of STAT, the last of which (only) has the bit. -/
theorem waitFor_spec (u : Uart) (m : BitVec 32) (k : Nat) (hk : k < 32) (hm : m = BitVec.ofNat 32 (2 ^ k)) :
    ∀ fuel s s', waitFor u m k fuel s = some s' → s'.errno = s.errno ∧
      ∃ (vs : List (BitVec 32)) (v : BitVec 32), s'.log = s.log ++ vs.map Access.stat ++ [.stat v] ∧ v.getLsbD k = true ∧ ∀ w ∈ vs, w.getLsbD k = false := by
  intro fuel
  induction fuel with
  | zero => intro s s' h; cases h
  | succ fuel ih =>
    intro s s' h
    unfold waitFor at h
    simp only [mask_bit _ _ _ hk hm] at h
    split at h
    · rename_i hf
      obtain ⟨he, vs, v, hl, hv, hw⟩ := ih _ _ h
      refine ⟨he, u.stat (reads s.log) :: vs, v, ?_, hv, ?_⟩
      · rw [hl]; simp
      · intro w hm
        rcases List.mem_cons.1 hm with rfl | hm
        · exact hf
        · exact hw w hm
    · rename_i hf
      injection h with h
      subst h
      exact ⟨rfl, [], u.stat (reads s.log), by simp, by simpa using hf, fun w hw => by cases hw⟩

theorem waitFor_ends (u : Uart) (m : BitVec 32) (k : Nat) (hk : k < 32) (hm : m = BitVec.ofNat 32 (2 ^ k)) :
    ∀ d (s : State), (∃ n, n = reads s.log + d ∧ (u.stat n).getLsbD k = true) →
      ∃ s', waitFor u m k (d + 1) s = some s' := by
  intro d
  induction d with
  | zero =>
    rintro s ⟨n, rfl, hb⟩
    unfold waitFor
    simp only [mask_bit _ _ _ hk hm]
    rw [Nat.add_zero] at hb
    rw [if_neg (by rw [hb]; simp)]
    exact ⟨_, rfl⟩
  | succ d ih =>
    rintro s ⟨n, rfl, hb⟩
    unfold waitFor
    simp only [mask_bit _ _ _ hk hm]
    split
    · apply ih
      refine ⟨_, rfl, ?_⟩
      rw [reads_append]
      have : reads [Access.stat (u.stat (reads s.log))] = 1 := rfl
      simp only [this]
      rw [show reads s.log + 1 + d = reads s.log + (d + 1) by omega]
      exact hb
    · exact ⟨_, rfl⟩

theorem waitFor_mono (u : Uart) (m : BitVec 32) (k : Nat) : ∀ f g s s', f ≤ g → waitFor u m k f s = some s' →
    waitFor u m k g s = some s' := by
  intro f
  induction f with
  | zero => intro g s s' _ h; cases h
  | succ f ih =>
    intro g s s' hle h
    obtain ⟨g, rfl⟩ : ∃ g', g = g' + 1 := ⟨g - 1, by omega⟩
    unfold waitFor at h ⊢
    simp only at h ⊢
    split at h
    · rename_i hc; rw [if_pos hc]; exact ih _ _ _ (by omega) h
    · rename_i hc; rw [if_neg hc]; exact h

/-- What sending a character adds to the log. -/
theorem transmit_char_spec (u : Uart) (fuel : Nat) (c : Byte) (s s' : State) (h : transmit_char u fuel c s = some s') :
    s'.errno = s.errno ∧ ∃ (vs : List (BitVec 32)) (v : BitVec 32), s'.log = s.log ++ vs.map Access.stat ++ [.stat v, .send c] ∧ v.getLsbD 23 = true := by
  unfold transmit_char at h
  obtain ⟨s1, h1, h2⟩ := Option.bind_eq_some_iff.1 h
  obtain ⟨he, vs, v, hl, hv, _⟩ := waitFor_spec u _ 23 (by decide) (by decide) _ _ _ h1
  injection h2 with h2
  subst h2
  exact ⟨he, vs, v, by simp [hl], hv⟩

theorem sent_stats (vs : List (BitVec 32)) : sent (vs.map Access.stat) = [] := by
  induction vs with
  | nil => rfl
  | cons v vs ih => simp [sent]

theorem transmit_char_ends (u : Uart) (hu : u.Sends) (c : Byte) (s : State) :
    ∃ f0, ∀ fuel, f0 ≤ fuel → ∃ s', transmit_char u fuel c s = some s' := by
  obtain ⟨m, hm, hb⟩ := hu (reads s.log)
  obtain ⟨s', h⟩ := waitFor_ends u 0x800000#32 23 (by decide) (by decide) (m - reads s.log) s ⟨m, by omega, hb⟩
  refine ⟨m - reads s.log + 1, fun fuel hf => ⟨{ s' with log := s'.log ++ [.send c] }, ?_⟩⟩
  unfold transmit_char
  rw [waitFor_mono u _ _ _ _ _ _ hf h]
  rfl

theorem transmit_char_sent (u : Uart) (fuel : Nat) (c : Byte) (s s' : State) (h : transmit_char u fuel c s = some s') :
    sent s'.log = sent s.log ++ [c] := by
  obtain ⟨_, vs, v, hl, _⟩ := transmit_char_spec u fuel c s s' h
  rw [hl, sent_append, sent_append, sent_stats]
  simp [sent]

theorem transmit_char_mono (u : Uart) (f g : Nat) (c : Byte) (s s' : State) (hle : f ≤ g)
    (h : transmit_char u f c s = some s') : transmit_char u g c s = some s' := by
  unfold transmit_char at h ⊢
  obtain ⟨s1, h1, h2⟩ := Option.bind_eq_some_iff.1 h
  rw [waitFor_mono u _ _ _ _ _ _ hle h1]
  exact h2

theorem transmit_len_mono (u : Uart) (f g : Nat) (b : Nat → Byte) (hle : f ≤ g) : ∀ k i s s',
    transmit_string_len u f b k i s = some s' → transmit_string_len u g b k i s = some s' := by
  intro k
  induction k with
  | zero => intro i s s' h; exact h
  | succ k ih =>
    intro i s s' h
    unfold transmit_string_len at h ⊢
    obtain ⟨s1, h1, h2⟩ := Option.bind_eq_some_iff.1 h
    rw [transmit_char_mono u f g _ _ _ hle h1]
    exact ih _ _ _ h2

theorem range'_bytes (b : Nat → Byte) (k i : Nat) : (List.range' i (k + 1)).map b = b i :: (List.range' (i + 1) k).map b := by
  rw [List.range'_succ, List.map_cons]

/-- Sending `k` characters from `i` on. -/
theorem transmit_len_ends (u : Uart) (hu : u.Sends) (b : Nat → Byte) : ∀ k i s, ∃ fuel s',
    transmit_string_len u fuel b k i s = some s' ∧ sent s'.log = sent s.log ++ (List.range' i k).map b := by
  intro k
  induction k with
  | zero => intro i s; exact ⟨0, s, rfl, by simp⟩
  | succ k ih =>
    intro i s
    obtain ⟨f0, hf⟩ := transmit_char_ends u hu (b i) s
    obtain ⟨s1, h1⟩ := hf f0 (Nat.le_refl _)
    obtain ⟨f1, s2, h2, hs⟩ := ih (i + 1) s1
    refine ⟨f0 + f1, s2, ?_, ?_⟩
    · unfold transmit_string_len
      rw [transmit_char_mono u f0 (f0 + f1) _ _ _ (by omega) h1]
      exact transmit_len_mono u f1 (f0 + f1) b (by omega) _ _ _ _ h2
    · rw [hs, transmit_char_sent u f0 _ _ _ h1, range'_bytes]
      simp

theorem noOverrun_append (l : List Access) (vs : List (BitVec 32)) (v : BitVec 32) (c : Byte) (h : NoOverrun l)
    (hv : v.getLsbD 23 = true) : NoOverrun (l ++ vs.map Access.stat ++ [.stat v, .send c]) := by
  have h1 : ∀ (vs : List (BitVec 32)) (l : List Access), NoOverrun l → NoOverrun (l ++ vs.map Access.stat) := by
    intro vs l hl pre b post he
    rw [List.append_eq_append_iff] at he
    rcases he with ⟨as, h1, h2⟩ | ⟨bs, h1, h2⟩
    · exfalso
      have : Access.send b ∈ vs.map Access.stat := by rw [h2]; simp
      obtain ⟨w, _, hw⟩ := List.mem_map.1 this
      cases hw
    · cases bs with
      | nil =>
        exfalso
        have : Access.send b ∈ vs.map Access.stat := by rw [List.nil_append] at h2; rw [← h2]; simp
        obtain ⟨w, _, hw⟩ := List.mem_map.1 this
        cases hw
      | cons x bs =>
        injection h2 with h2 h3
        subst h2
        exact hl pre b bs h1
  have h2 := h1 (vs ++ [v]) l h
  intro pre b post he
  have he' : (l ++ (vs ++ [v]).map Access.stat) ++ [Access.send c] = pre ++ Access.send b :: post := by
    rw [← he]; simp
  rcases List.eq_nil_or_concat post with hp | ⟨post', x, hp⟩
  · subst hp
    obtain ⟨ha, _⟩ := List.append_inj' he' rfl
    exact ⟨l ++ vs.map Access.stat, v, by rw [← ha]; simp, hv⟩
  · subst hp
    have he2 : (l ++ (vs ++ [v]).map Access.stat) ++ [Access.send c] = (pre ++ Access.send b :: post') ++ [x] := by
      rw [he']; simp
    obtain ⟨ha, _⟩ := List.append_inj' he2 rfl
    exact h2 pre b post' ha

theorem transmit_len_noOverrun (u : Uart) (fuel : Nat) (b : Nat → Byte) : ∀ k i s s', NoOverrun s.log →
    transmit_string_len u fuel b k i s = some s' → NoOverrun s'.log ∧ s'.errno = s.errno := by
  intro k
  induction k with
  | zero => intro i s s' hn h; injection h with h; subst h; exact ⟨hn, rfl⟩
  | succ k ih =>
    intro i s s' hn h
    unfold transmit_string_len at h
    obtain ⟨s1, h1, h2⟩ := Option.bind_eq_some_iff.1 h
    obtain ⟨he, vs, v, hl, hv⟩ := transmit_char_spec u fuel _ _ _ h1
    obtain ⟨h3, h4⟩ := ih (i + 1) s1 s' (by rw [hl]; exact noOverrun_append _ _ _ _ hn hv) h2
    exact ⟨h3, by rw [h4, he]⟩

/-! ## C57 -/

/-- C57, partial: `_write` with at least one byte returns (if the transmitter does its work), has sent exactly the bytes of the
buffer, in order, none of them while the transmitter was full - and returns 0. With no bytes, or no buffer, it sends nothing and
fails. Missing: the number of bytes as result. -/
theorem C57_write_partial (u : Uart) (hu : u.Sends) (b : Nat → Byte) (count : Nat) (s : State) :
    (0 < count → ∃ fuel s', write u fuel (some b) count s = some (0, s') ∧
      sent s'.log = sent s.log ++ firstBytes b count ∧ (NoOverrun s.log → NoOverrun s'.log) ∧ s'.errno = s.errno) ∧
    (∀ fuel, write u fuel (some b) 0 s = some (-1, { s with errno := EINVAL })) ∧
    (∀ fuel n, write u fuel none n s = some (-1, { s with errno := EINVAL })) := by
  refine ⟨fun hc => ?_, fun fuel => rfl, fun fuel n => rfl⟩
  obtain ⟨fuel, s', h, hs⟩ := transmit_len_ends u hu b count 0 s
  refine ⟨fuel, s', ?_, ?_, ?_, ?_⟩
  · unfold write
    simp only
    rw [if_neg (by omega), h]
    rfl
  · rw [hs, firstBytes, List.range_eq_range']
  · intro hn; exact (transmit_len_noOverrun u fuel b count 0 s s' hn h).1
  · have : ∀ k i s s', transmit_string_len u fuel b k i s = some s' → s'.errno = s.errno := by
      intro k
      induction k with
      | zero => intro i s s' h; injection h with h; rw [h]
      | succ k ih =>
        intro i s s' h
        unfold transmit_string_len at h
        obtain ⟨s1, h1, h2⟩ := Option.bind_eq_some_iff.1 h
        rw [ih _ _ _ h2, (transmit_char_spec u fuel _ _ _ h1).1]
    exact this _ _ _ _ h

/-- C57, partial: `_write` does not look at bytes after the first `count`. -/
theorem C57_write_reads_partial (u : Uart) (fuel : Nat) (b b' : Nat → Byte) (count : Nat) (s : State)
    (h : ∀ i, i < count → b i = b' i) : write u fuel (some b) count s = write u fuel (some b') count s := by
  have : ∀ k i s, i + k ≤ count → transmit_string_len u fuel b k i s = transmit_string_len u fuel b' k i s := by
    intro k
    induction k with
    | zero => intro i s _; rfl
    | succ k ih =>
      intro i s hle
      unfold transmit_string_len
      rw [h i (by omega)]
      cases transmit_char u fuel (b' i) s with
      | none => rfl
      | some s1 => exact ih (i + 1) s1 (by omega)
  unfold write
  simp only
  rw [this count 0 s (by omega)]

/-- C57, partial: `getcwd` writes "/" and a NUL if there is room for them, and nothing otherwise: never beyond the buffer. -/
theorem C57_getcwd_partial (b : List Byte) (s : State) :
    (b.length ≤ 1 → getcwd (some b) b.length s = .ok (some b, true, { s with errno := EINVAL })) ∧
    (2 ≤ b.length → getcwd (some b) b.length s = .ok (some (47#8 :: 0#8 :: b.drop 2), false, s)) ∧
    (∀ n, getcwd none n s = .ok (none, true, { s with errno := EINVAL })) := by
  refine ⟨fun h => ?_, fun h => ?_, fun n => rfl⟩
  · simp only [getcwd, if_pos h]
  · simp only [getcwd, if_neg (show ¬ b.length ≤ 1 by omega), if_neg (show ¬ b.length < 2 by omega)]
    match b, h with
    | x :: y :: b, _ => rfl

/-- C57, partial: the stubs that cannot do their job say so. -/
theorem C57_failures_partial (s : State) :
    (mkdir s).1 = -1 ∧ (mkdir s).2.errno ≠ 0 ∧ («open» s).1 = -1 ∧ («open» s).2.errno ≠ 0 ∧
    (close s).1 = -1 ∧ (close s).2.errno ≠ 0 ∧ (gettimeofday none s).2.1 = -1 ∧ (gettimeofday none s).2.2.errno ≠ 0 ∧
    (∀ t, gettimeofday (some t) s = (some (0, 0), 0, s)) :=
  ⟨rfl, Nat.succ_ne_zero _, rfl, Nat.succ_ne_zero _, rfl, Nat.succ_ne_zero _, rfl, Nat.succ_ne_zero _, fun _ => rfl⟩

/-- C57 is false of the stubs: `_write` never returns the number of bytes (0 for "hello": newlib's `fwrite` then takes it that
nothing was written), and writing nothing is an error. -/
theorem C57_full_statement_fails : ¬ C57_Statement ∧
    ∀ (u : Uart) (fuel : Nat) (b : Nat → Byte) (count : Nat) (s s' : State), write u fuel (some b) count s ≠ some ((count : Int), s') := by
  have key : ∀ (u : Uart) (fuel : Nat) (b : Nat → Byte) (count : Nat) (s s' : State),
      write u fuel (some b) count s ≠ some ((count : Int), s') := by
    intro u fuel b count s s' h
    unfold write at h
    simp only at h
    split at h
    · rename_i hc; injection h with h; injection h with h _; omega
    · rename_i hc
      obtain ⟨s1, _, h2⟩ := Option.bind_eq_some_iff.1 h
      injection h2 with h2; injection h2 with h2 _; omega
  refine ⟨fun h => ?_, key⟩
  obtain ⟨fuel, s', h1, _⟩ := h.1 ⟨fun _ => 0x800000#32, fun _ => 0#8⟩ (fun n => ⟨n, Nat.le_refl _, by simp⟩) (fun _ => 65#8) 5 ⟨[], 0⟩
  exact key _ _ _ _ _ _ h1

/-! ## C64 -/

theorem transmit_string_mono (u : Uart) (f g : Nat) (str : Nat → Byte) (hle : f ≤ g) : ∀ n i s s',
    transmit_string u f str n i s = some s' → transmit_string u g str n i s = some s' := by
  intro n
  induction n with
  | zero => intro i s s' h; cases h
  | succ n ih =>
    intro i s s' h
    unfold transmit_string at h ⊢
    split at h
    · rename_i hc
      rw [if_pos hc]
      obtain ⟨s1, h1, h2⟩ := Option.bind_eq_some_iff.1 h
      rw [transmit_char_mono u f g _ _ _ hle h1]
      exact ih _ _ _ h2
    · rename_i hc
      rw [if_neg hc]
      exact h

/-- C64: `LPUART1_transmit_string` never gives a character to a transmitter that is full. -/
theorem C64_no_overrun (u : Uart) (fuel : Nat) (str : Nat → Byte) (n : Nat) (i : BitVec 32) (s s' : State)
    (h : transmit_string u fuel str n i s = some s') (hn : NoOverrun s.log) : NoOverrun s'.log := by
  induction n generalizing i s with
  | zero => cases h
  | succ n ih =>
    unfold transmit_string at h
    split at h
    · obtain ⟨s1, h1, h2⟩ := Option.bind_eq_some_iff.1 h
      obtain ⟨-, vs, v, hl, hv⟩ := transmit_char_spec u fuel _ _ _ h1
      exact ih _ s1 h2 (by rw [hl]; exact noOverrun_append _ _ _ _ hn hv)
    · injection h with h; subst h; exact hn

/-- C64: `LPUART1_transmit_string` sends exactly the characters before the NUL, in order. -/
theorem C64_transmit_string (u : Uart) (hu : u.Sends) (str : Nat → Byte) (n : Nat) (hn : str n = 0#8) (h32 : n < 2 ^ 32)
    (hne : ∀ i, i < n → str i ≠ 0#8) (s : State) :
    ∃ fuel s', transmit_string u fuel str (n + 1) 0#32 s = some s' ∧ sent s'.log = sent s.log ++ firstBytes str n := by
  have key : ∀ k i s, i + k = n → ∃ fuel s', transmit_string u fuel str (k + 1) (BitVec.ofNat 32 i) s = some s' ∧
      sent s'.log = sent s.log ++ (List.range' i k).map str := by
    intro k
    induction k with
    | zero =>
      intro i s hi
      refine ⟨0, s, ?_, by simp⟩
      unfold transmit_string
      have : (BitVec.ofNat 32 i).toNat = n := by rw [BitVec.toNat_ofNat, Nat.mod_eq_of_lt (by omega)]; omega
      rw [this, hn]
      simp
    | succ k ih =>
      intro i s hi
      have hto : (BitVec.ofNat 32 i).toNat = i := by rw [BitVec.toNat_ofNat, Nat.mod_eq_of_lt (by omega)]
      obtain ⟨f0, hf⟩ := transmit_char_ends u hu (str i) s
      obtain ⟨s1, h1⟩ := hf f0 (Nat.le_refl _)
      obtain ⟨f1, s2, h2, hs⟩ := ih (i + 1) s1 (by omega)
      refine ⟨f0 + f1, s2, ?_, ?_⟩
      · unfold transmit_string
        rw [hto, if_pos (hne i (by omega)), transmit_char_mono u f0 (f0 + f1) _ _ _ (by omega) h1]
        have hadd : BitVec.ofNat 32 i + 1#32 = BitVec.ofNat 32 (i + 1) := by rw [BitVec.ofNat_add]
        show transmit_string u (f0 + f1) str (k + 1) _ s1 = some s2
        rw [hadd]
        exact transmit_string_mono u f1 (f0 + f1) str (by omega) _ _ _ _ h2
      · rw [hs, transmit_char_sent u f0 _ _ _ h1, range'_bytes]
        simp
  obtain ⟨fuel, s', h, hs⟩ := key n 0 s (by omega)
  exact ⟨fuel, s', h, by rw [hs, firstBytes, List.range_eq_range']⟩

/-- C64: `_putchar` returns (if the transmitter does its work), has sent one byte, the character's lowest eight bits, and not
while the transmitter was full. -/
theorem C64_putchar (u : Uart) (hu : u.Sends) (c : BitVec 32) (s : State) : ∃ fuel s', putchar u fuel c s = some s' ∧
    sent s'.log = sent s.log ++ [BitVec.ofNat 8 c.toNat] ∧ (NoOverrun s.log → NoOverrun s'.log) ∧ s'.errno = s.errno := by
  obtain ⟨fuel, h⟩ := transmit_char_ends u hu (c.setWidth 8) s
  obtain ⟨s', h⟩ := h fuel (Nat.le_refl _)
  obtain ⟨he, vs, v, hl, hv⟩ := transmit_char_spec u fuel _ _ _ h
  exact ⟨fuel, s', h, by rw [transmit_char_sent u fuel _ _ _ h]; rfl, fun hn => by rw [hl]; exact noOverrun_append _ _ _ _ hn hv, he⟩

/-- The bytes received, in order. -/
def received (l : List Access) : List Byte := l.filterMap fun | .receive b => some b | _ => none

theorem received_append (a b : List Access) : received (a ++ b) = received a ++ received b := List.filterMap_append ..

theorem received_stats (vs : List (BitVec 32)) : received (vs.map Access.stat) = [] := by
  induction vs with
  | nil => rfl
  | cons v vs ih => simp [received]

theorem reads_stats (vs : List (BitVec 32)) : reads (vs.map Access.stat) = vs.length := by
  induction vs with
  | nil => rfl
  | cons v vs ih =>
    show reads ([Access.stat v] ++ vs.map Access.stat) = _
    rw [reads_append, ih]
    show 1 + vs.length = vs.length + 1
    omega

/-- C64: `LPUART1_receive_char`: the byte is read once, directly after the receiver said there is one. -/
theorem C64_receive (u : Uart) (fuel : Nat) (s s' : State) (c : Byte) (h : receive_char u fuel s = some (c, s')) :
    ∃ vs v, s'.log = s.log ++ List.map Access.stat vs ++ [.stat v, .receive c] ∧ v.getLsbD 21 = true ∧
      (∀ w ∈ vs, w.getLsbD 21 = false) ∧ c = u.data (reads s.log + vs.length + 1) := by
  unfold receive_char at h
  obtain ⟨s1, h1, h2⟩ := Option.bind_eq_some_iff.1 h
  obtain ⟨he, vs, v, hl, hv, hw⟩ := waitFor_spec u _ 21 (by decide) (by decide) _ _ _ h1
  injection h2 with h2
  injection h2 with h2 h3
  subst h2
  subst h3
  refine ⟨vs, v, by simp [hl], hv, hw, ?_⟩
  rw [hl, reads_append, reads_append]
  rw [reads_stats]
  rfl

/-- C64: `LPUART1_receive_and_echo_char` sends back the byte received, then a line feed and a carriage return. -/
theorem C64_echo (u : Uart) (fuel : Nat) (s s' : State) (h : receive_and_echo_char u fuel s = some s') :
    ∃ c, received s'.log = received s.log ++ [c] ∧ sent s'.log = sent s.log ++ [c, 10#8, 13#8] := by
  unfold receive_and_echo_char at h
  obtain ⟨⟨c, s1⟩, h1, h⟩ := Option.bind_eq_some_iff.1 h
  obtain ⟨s2, h2, h⟩ := Option.bind_eq_some_iff.1 h
  obtain ⟨s3, h3, h4⟩ := Option.bind_eq_some_iff.1 h
  obtain ⟨vs, v, hl, _⟩ := C64_receive u fuel s s1 c h1
  have hr : ∀ x t t', transmit_char u fuel x t = some t' → received t'.log = received t.log := by
    intro x t t' ht
    obtain ⟨_, vs, v, hl, _⟩ := transmit_char_spec u fuel x t t' ht
    rw [hl, received_append, received_append, received_stats]
    simp [received]
  refine ⟨c, ?_, ?_⟩
  · rw [hr _ _ _ h4, hr _ _ _ h3, hr _ _ _ h2, hl, received_append, received_append, received_stats]
    simp [received]
  · rw [transmit_char_sent u fuel _ _ _ h4, transmit_char_sent u fuel _ _ _ h3, transmit_char_sent u fuel _ _ _ h2, hl,
      sent_append, sent_append, sent_stats]
    simp [sent]

theorem noOverrun_receive (l : List Access) (vs : List (BitVec 32)) (v : BitVec 32) (c : Byte) (h : NoOverrun l) :
    NoOverrun (l ++ vs.map Access.stat ++ [.stat v, .receive c]) := by
  intro pre b post he
  have key : ∀ x : List Access, (∀ a ∈ x, ∀ b, a ≠ .send b) → ∀ pre post, l ++ x = pre ++ Access.send b :: post →
      ∃ post', l = pre ++ Access.send b :: post' := by
    intro x hx pre post he
    rw [List.append_eq_append_iff] at he
    rcases he with ⟨as, h1, h2⟩ | ⟨bs, h1, h2⟩
    · exact absurd rfl (hx (Access.send b) (by rw [h2]; simp) b)
    · cases bs with
      | nil => exact absurd rfl (hx (Access.send b) (by rw [List.nil_append] at h2; rw [← h2]; simp) b)
      | cons y bs =>
        injection h2 with h2 h3
        subst h2
        exact ⟨bs, h1⟩
  rw [List.append_assoc] at he
  obtain ⟨post', hp⟩ := key (vs.map Access.stat ++ [.stat v, .receive c]) (by
    intro a ha b
    rcases List.mem_append.1 ha with ha | ha
    · obtain ⟨w, -, rfl⟩ := List.mem_map.1 ha; exact fun h => by cases h
    · rcases List.mem_cons.1 ha with rfl | ha
      · exact fun h => by cases h
      · rw [List.mem_singleton.1 ha]; exact fun h => by cases h) pre post he
  exact h pre b post' hp

/-- C64: nor does the echo. -/
theorem C64_echo_no_overrun (u : Uart) (fuel : Nat) (s s' : State) (h : receive_and_echo_char u fuel s = some s')
    (hn : NoOverrun s.log) : NoOverrun s'.log := by
  unfold receive_and_echo_char at h
  obtain ⟨⟨c, s1⟩, h1, h⟩ := Option.bind_eq_some_iff.1 h
  obtain ⟨s2, h2, h⟩ := Option.bind_eq_some_iff.1 h
  obtain ⟨s3, h3, h4⟩ := Option.bind_eq_some_iff.1 h
  obtain ⟨vs, v, hl, _⟩ := C64_receive u fuel s s1 c h1
  have hr : ∀ x t t', transmit_char u fuel x t = some t' → NoOverrun t.log → NoOverrun t'.log := by
    intro x t t' ht hh
    obtain ⟨_, vs, v, hl, hv⟩ := transmit_char_spec u fuel x t t' ht
    rw [hl]; exact noOverrun_append _ _ _ _ hh hv
  exact hr _ _ _ h4 (hr _ _ _ h3 (hr _ _ _ h2 (by rw [hl]; exact noOverrun_receive _ _ _ _ hn)))

/-- A transmitter that is busy every other time it is asked. -/
def slowUart : Uart := ⟨fun n => if n % 2 = 1 then 0x800000#32 else 0#32, fun _ => 0#8⟩

example : slowUart.Sends := by
  intro n
  refine ⟨2 * n + 1, by omega, ?_⟩
  have : (2 * n + 1) % 2 = 1 := by omega
  simp [slowUart, this]

example : (write slowUart 3 (some fun i => BitVec.ofNat 8 (65 + i)) 3 ⟨[], 0⟩).map (fun r => (r.1, sent r.2.log)) =
    some (0, [65#8, 66#8, 67#8]) := by decide

example : (transmit_string slowUart 3 (fun i => [72#8, 105#8, 0#8, 33#8].getD i 0#8) 5 0#32 ⟨[], 0⟩).map
    (fun s => sent s.log) = some [72#8, 105#8] := by decide

/-- The receiver has a byte the third time it is asked. -/
example : (receive_and_echo_char ⟨fun n => if n < 2 then 0x800000#32 else 0xA00000#32, fun n => BitVec.ofNat 8 (60 + n)⟩ 4
    ⟨[], 0⟩).map (fun s => (received s.log, sent s.log)) = some ([63#8], [63#8, 10#8, 13#8]) := by decide

end Uavcan.TestSys
