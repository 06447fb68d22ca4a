import Verif.Core.Outcome

/-!
# Model of the on-target system call stubs and of the serial port

`test/ontarget/S32K148EVB/src/test_sys.c` and `test/ontarget/S32K148EVB/src/LPUART.c`. The serial port's status register is
answered by the hardware: `stat n` is what the `n`th read of it gives, `data n` is what reading DATA gives then. Loops that
wait for the hardware take fuel; "returns" means: for some fuel.
-/

namespace Uavcan.TestSys

abbrev Byte := BitVec 8

/-- `LPUART1`, as the processor sees it. -/
structure Uart where
  stat : Nat → BitVec 32
  data : Nat → Byte

/-- An access to the serial port. -/
inductive Access where
  | stat (value : BitVec 32)
  | send (byte : Byte)
  | receive (byte : Byte)
  deriving DecidableEq

/-- The accesses so far and `errno`. -/
structure State where
  log : List Access
  errno : Nat

/-- The number of reads of STAT so far. -/
def reads (l : List Access) : Nat := (l.filter fun | .stat _ => true | _ => false).length

/-- `errno` values; any distinct positive numbers would do. -/
def ENOENT : Nat := 2
def EIO : Nat := 5
def EACCES : Nat := 13
def EINVAL : Nat := 22

/-- `while ((LPUART1->STAT & mask) >> shift == 0);`, LPUART.c:75–76 and 102–103. -/
def waitFor (u : Uart) (mask : BitVec 32) (shift : Nat) : Nat → State → Option State
  | 0, _ => none
  | fuel + 1, s =>
    let v := u.stat (reads s.log)
    let s := { s with log := s.log ++ [.stat v] }
    if (v &&& mask) >>> shift = 0#32 then waitFor u mask shift fuel s else some s

/-- `LPUART1_transmit_char`, LPUART.c:73–79. -/
def transmit_char (u : Uart) (fuel : Nat) (c : Byte) (s : State) : Option State := do
  let s ← waitFor u 0x800000#32 23 fuel s                  -- 75–76
  return { s with log := s.log ++ [.send c] }              -- 78

/-- `LPUART1_transmit_string`, LPUART.c:81–89; `i` is a `uint32_t`. The fuel also bounds the number of characters. -/
def transmit_string (u : Uart) (fuel : Nat) (str : Nat → Byte) : Nat → BitVec 32 → State → Option State
  | 0, _, _ => none
  | n + 1, i, s =>
    if str i.toNat ≠ 0#8 then do
      let s ← transmit_char u fuel (str i.toNat) s
      transmit_string u fuel str n (i + 1#32) s
    else some s

/-- `LPUART1_transmit_string_len`, LPUART.c:91–97, from `i` on with `k` characters to go. -/
def transmit_string_len (u : Uart) (fuel : Nat) (str : Nat → Byte) : (k i : Nat) → State → Option State
  | 0, _, s => some s
  | k + 1, i, s => do
    let s ← transmit_char u fuel (str i) s
    transmit_string_len u fuel str k (i + 1) s

/-- `LPUART1_receive_char`, LPUART.c:99–107. -/
def receive_char (u : Uart) (fuel : Nat) (s : State) : Option (Byte × State) := do
  let s ← waitFor u 0x200000#32 21 fuel s                  -- 102–103
  let c := u.data (reads s.log)                            -- 105
  return (c, { s with log := s.log ++ [.receive c] })

/-- `LPUART1_receive_and_echo_char`, LPUART.c:109–115. -/
def receive_and_echo_char (u : Uart) (fuel : Nat) (s : State) : Option State := do
  let (c, s) ← receive_char u fuel s
  let s ← transmit_char u fuel c s
  let s ← transmit_char u fuel 10#8 s
  transmit_char u fuel 13#8 s

/-- `getcwd`, test_sys.c:12–22. The buffer is an array (`none`: a null pointer), possibly with a length other than `size`.
The result says whether a null pointer is returned. -/
def getcwd (buf : Option (List Byte)) (size : Nat) (s : State) : Outcome (Option (List Byte) × Bool × State) :=
  match buf with
  | none => .ok (none, true, { s with errno := EINVAL })
  | some b =>
    if size ≤ 1 then .ok (some b, true, { s with errno := EINVAL })
    else if b.length < 2 then .ub .outOfBounds
    else .ok (some ((b.set 0 47#8).set 1 0#8), false, s)

/-- `mkdir`, test_sys.c:24–30. -/
def mkdir (s : State) : Int × State := (-1, { s with errno := EACCES })

/-- `_gettimeofday`, test_sys.c:33–48: the time (`none`: a null pointer), the result. -/
def gettimeofday (tp : Option (Int × Int)) (s : State) : Option (Int × Int) × Int × State :=
  match tp with
  | some _ => (some (0, 0), 0, s)
  | none => (none, -1, { s with errno := EINVAL })

/-- `_write`, test_sys.c:50–60. -/
def write (u : Uart) (fuel : Nat) (buf : Option (Nat → Byte)) (count : Nat) (s : State) : Option (Int × State) :=
  match buf with
  | none => some (-1, { s with errno := EINVAL })
  | some b =>
    if count = 0 then some (-1, { s with errno := EINVAL })
    else do
      let s ← transmit_string_len u fuel b count 0 s
      return (0, s)

/-- `_open`, test_sys.c:62–69. -/
def «open» (s : State) : Int × State := (-1, { s with errno := ENOENT })

/-- `_close`, test_sys.c:71–76. -/
def close (s : State) : Int × State := (-1, { s with errno := EIO })

/-- `_putchar`, test_sys.c:78–81: `(char) c` keeps the lowest eight bits. -/
def putchar (u : Uart) (fuel : Nat) (c : BitVec 32) (s : State) : Option State := transmit_char u fuel (c.setWidth 8) s

end Uavcan.TestSys
