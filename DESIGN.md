# Design

The code under study is UAVCAN/libuavcan in `/repo`. It is only read, never built or run. Line
numbers below and in the Lean comments are line numbers of files in `/repo`.

## 1. Layout

| Directory (under `lean/Verif/`) | Contents |
|---|---|
| `Core/` | the `Outcome` monad (a value, or undefined behaviour with a reason) and fixed-width integers |
| `Model/` | the code, function by function; every definition cites its file and lines |
| `Spec/` | small specifications that never mention a model definition's helpers (`clamp`, CAN FD lengths, bit copy, abstract stack, …) |
| `Lemmas/` | invariants and auxiliary lemmas |
| `Props/` | one file per topic with the property theorems, named `Cnn_…`, and an `example` beside each |

## 2. Trusted base

* Lean 4's kernel. Each theorem depends on at most `propext`, `Classical.choice`, `Quot.sound`
  (`Verif/Axioms.lean` prints them). No own axioms, no `sorry`, no `native_decide`, no `bv_decide`.
* The transcription of the C++ into Lean, which is by hand. Everything below under "modelled" is
  transcribed statement by statement; everything under "not modelled" is outside the claims.
* C++ facts used by the transcription: two's complement integers, `int` has 32 bits (true of both
  targets, x86-64 Linux and ARMv7-M), integral promotion of narrower types to `int`, conversion to a
  signed type of an out-of-range value is modulo 2^w (implementation-defined before C++20, so on both compilers),
  signed overflow and `std::abs` of the most negative value are undefined.
* For the concurrent pool (C25) interleaving of the atomic operations (the code uses the default `memory_order_seq_cst`); C97 adds the happens-before relation of C++11 and data races on ordinary accesses, so that an interleaving is meaningful exactly up to the first race.
* For the first access to a pool (C106): the guard of a local static as in the Itanium C++ ABI (acquire, construct, release; waiting threads return only after release), and
  with `-fno-threadsafe-statics` a plain test before and a plain store after construction.
* For the SocketCAN example the kernel is an adversary: every system call's answer is a universally quantified argument.
  Only these facts of Linux are used, and only where stated: the CAN receive filter rule
  (`(can_id & mask) == (filter_id & mask)` over 32-bit words), that `sendmmsg`/`recvmmsg` return at most the number of messages offered,
  and (C67, C68) which arriving messages go to the queue of a bound socket (`Spec/SocketKernel`), and (C69–C71) how it fills
  control buffers (`put_cmsg`: what does not fit is cut off or left out, `msg_controllen` becomes the number of bytes used)
  and which control data it refuses on sending (`Spec/SocketCtl`; from memory of Linux, not checked against a source tree), and (C103, C104) when a raw CAN socket waits,
  refuses a message for its size, or takes it (`Spec/SocketSend`), and (C105) that `SO_TIMESTAMP` gives the time of day (`Spec/WallClock`), and (C109) that an error of a socket is reported once, before the messages that wait (`Spec/Drain`), and (C113) that `ppoll` reports what waits at the moment when it returns (`Spec/EventLoop`), and (C124) that it reports room to send while less than half of the send buffer is used (`Spec/Redundant`), and (C110) that a CAN FD controller rounds up the length of a frame (`Spec/Stream`), likewise from memory. For C107 `std::chrono::steady_clock` does not go back.
* For the target (C72–C74): ARMv7-M takes the address of a handler from entry n of the table at VTOR; names of handlers by the CMSIS
  convention; the watchdog accepts configuration only in a window opened by the unlock word (`Spec/Boot`), and the few instructions
  between unlocking and configuring take less than the window; the linker prefers strong to weak symbols, and the assembler's `.set`
  takes the value of the label in the same file.
* For what compiles (C90, C91): the rules of C++ for the instantiation of members, overload resolution and class layout, as restated in `Model/CompileTime.lean`; a program is straight-line code, and a variable initialised from itself is not counted as declared.
* For the coverage reports (C112): that lcov, gcov and make behave as documented: counters are added up when a program exits, `--zerocounters` removes those of all tests, a custom command that depends on a custom target is only ordered after it, and `clean` removes the outputs of custom commands.
* For the containers (C87–C89): `std::vector` and `std::unordered_map` as in libstdc++ of GCC 13, read from its headers; they are not part of `/repo`. What the
  standard leaves open is a parameter. Older versions of libstdc++ may start with fewer buckets.
* For the serial line (C76, C78): registers of S32K148 as in `Spec/Serial` (meaning of fields from the reference manual as quoted in the
  code's comments), writes to registers take effect (no locked pin control registers), STAT has its reset value in MSBF and RXINV.
* For the tests' output on the target (C111): newlib-nano's output streams (`Spec/Stdio`: `__sputc_r`, `__swbuf_r`, `__sflush_r`), from memory; full buffering with
  `BUFSIZ` bytes because libnosys' `_fstat` fails.

### Undefined behaviour
`Outcome.ub` is a separate outcome, not a value. A theorem that says "returns v" therefore also says that
the behaviour is defined. Where compilers in practice do something known (wrapping `abs`), the model takes that
operation as a parameter so that both the strict reading and the wrapping machine are covered.

### Not modelled
C++ object lifetime rules, the Nunavut filters called by the templates (`c.macrofy` is assumed injective where needed, `c.type_from_primitive` is opaque), clang-format itself (its answers are arguments),
 strict aliasing, memory orders weaker than sequential consistency (the code uses none), allocation failure inside the standard library (except
the explicit `OutOfMemory` path), printing to stdout/stderr (except in C107 and C111), gtest itself, the CMake files apart from `apply_flag_set`, the functions with argument lists (C92–C94) and the order of a configuration run (C121), CMake, bash and the tools called by the scripts (their rules are transcribed, their answers are arguments), the peripherals behind the UART and clock registers (their answers are arguments; a clock switch is assumed to apply the whole register at once), the linker itself (placement, alignment and region checks of the script are transcribed by hand).
The validation suite `lvs/` and `test_util_math.cpp` are modelled as programs (C83–C86, C89); the rest of `test/native` is not.

## 3. Properties

"partial" means that the full statement is false of the code: the file contains a theorem proving the negation with
a concrete witness, and a `_partial` theorem that holds on the exact (where possible, "iff") domain on which the code is right.

| Id | Model | Proof |
|---|---|---|
| C01 | `Model/SatMath` signed `saturating_add` for every width w ≥ 2, over `Int` with range predicates, promotion to 32 bits explicit, `abs` a parameter | partial: correct iff w < 32 or left ≠ 0 or right ≥ 0. Undefined otherwise (strict); wrong value on a wrapping machine. Case analysis + `omega` |
| C02 | same, `saturating_sub` | partial: correct iff w < 32 or left ≠ 0 or right < 0 |
| C03 | unsigned, all widths w ≥ 1 | full |
| C04 | mixed add with two independent widths | partial: exact characterisation for equal widths, non-negative right operand otherwise |
| C05 | mixed sub | as C04 |
| C06 | `Model/Time` | full |
| C07 | `Model/Time`, int64 durations | partial: a + b exact iff a ≠ 0 ∨ b ≥ 0; a − b exact iff a ≠ 0 ∨ b < 0 (so `0 - 0` is undefined) |
| C08 | unary minus, every width | full |
| C09 | `getAbs` | partial: all but the minimum, which is undefined |
| C10 | folds of `+=`/`-=` over lists of durations | full, induction over the list |
| C11 | mixed arithmetic at 64 bits | partial: exact characterisation |
| C12 | object store (`Nat → value`) with copy/move/compound assignment | partial: everything but self-move (which resets the object to 0; shown) |
| C13–C16 | `Model/Can` tables as lists, `lengthToDlc`, `dlcToLength` for every MTU ≤ 64 | C15 partial (MTU must be a CAN FD length; witness MTU 9); others full. Table facts are decided over the complete finite table and lifted to all lengths by lemmas |
| C17 | constructor with source buffer as `Option (List byte)`, bounds-checked copy | partial: exact condition for definedness (length fits MTU and source); witness: DLC 15 into an 8-byte frame |
| C18, C19 | `==`, `<`, … on records | full (C18 under the definedness condition of `std::equal`, which C20 shows is invariant) |
| C20 | op lists over a store of frames | full invariant by induction on histories |
| C21–C24 | `Model/Pool`: byte-addressed memory (a link is stored as the bytes of a pointer in the block itself), head pointer, CAS loop with arbitrary spurious failures; byte addresses of blocks | full, refinement to an abstract stack of free blocks, induction over histories |
| C25 | `Model/PoolConc`: program counters per thread, one step per atomic/memory access, spurious CAS failure | partial: false (ABA trace and publication-window trace, both kernel-checked); safe under the two race-freedom conditions, and in particular when allocation and deallocation phases do not overlap; exact by usage: safe iff no thread gives back while a different one allocates (Props/PoolInterrupt) |
| C26 | same | full: step simulation to an atomic stack, solo termination |
| C27 | two configurations of C21's model | full |
| C28 | byte size of the grant vs. n·sizeof(T) | partial: exactly when n·sizeof(T) ≤ BlockSize or n > BlockSize |
| C29 | histories through allocator objects | full; the necessity of "only live blocks" is shown by the double-free witness |
| C30–C32 | `Model/CopyBits`: both loops over byte lists with bounds checks and `size_t` | partial: correct for all contents iff (offset 0 and 8 ∣ len) or (0 < offset < 8 and len = 8 − offset); witnesses otherwise; exact set of touched bytes |
| C33, C34 | same | C33 full; C34 closed form of the returned count, full or partial as the form dictates |
| C35 | `Model/Result` | full |
| C36 | `Model/SocketCan` write with kernel answers | partial (bad interface index leaves `out_frames_written` untouched; more than four frames is undefined) |
| C37 | wire buffer with stale contents | partial: DLC ≤ 8 |
| C38 | read over message batches | full |
| C39 | can_id classification | partial: exact set of delivered identifiers |
| C40 | payload mapping | partial: lengths ≤ 8 |
| C41 | write ∘ read | full for every valid DLC (the two errors cancel), id 0 excluded (partial) |
| C42 | fold over histories | partial: error counters and rx_total exact; rx_dropped exactly when every reported count but the last was zero (iff) |
| C43 | conversion of the timeout | partial: exact iff a whole number of seconds (and not 0, which is undefined) |
| C44 | poll result mapping | full |
| C45 | `uint8_t` loop | partial: at most 255 interfaces; witness of non-termination at 256 |
| C46 | filters + kernel rule | partial: lists of up to 512 filters; null array with a larger count is undefined |
| C47 | `uint8_t` loop | partial: at most 255 required interfaces |
| C48 | out parameter | partial: only if it was null before |
| C49 | positions | partial: only when no earlier open failed |
| C50 | traces of open/close events | partial: descriptor 0 leaks; otherwise exact |
| C51 | `Model/LoopBack`: class `LoopBackTest` with clock, `ppoll`, `sendmmsg` and `recvmmsg` answers as arguments, frames sent as events | full |
| C52 | getopt_long interaction | partial: second long option is undefined/rejected |
| C53 | emitted expression, C++ integer division, conversion to the type of the constant | partial: exact (iff): integers below 2^63 that the type has |
| C54 | emitted members | partial: structures with only primitive fields |
| C55 | `_run` | partial: malformed formatter output is ignored |
| C56 | byte memory, pointer loops | full for non-overlapping sections |
| C57 | stubs | partial: `_write` returns 0 |
| C58 | `Model/CoreClock`: register arithmetic in 32 bits | full |
| C59 | `Model/ExampleMain`: `main` of the example, from argument vector to exit status | partial: a device that cannot be opened is ignored |
| C60 | same, trace of open/use/close events | full, if descriptor 0 is in use at the start |
| C61 | `Model/Startup`: sections placed by the linker script, then the copy loops of C56 | full |
| C62 | same | partial: load addresses are not checked against the flash |
| C63 | `Model/CoreClock`: the functions that set up the clocks, registers read back through a hardware oracle | full |
| C64 | `Model/TestSys`: serial port functions with the status register as an oracle | full |
| C65 | `Model/Templates`: include guards as a preprocessor state | partial: two versions of one type |
| C66 | `Model/SocketManager`: every call on a socket is an event; `Spec/SocketKernel.callsOf` collects those since it was opened | partial: refused timestamps, drop counts, error messages are ignored, and a name ends at a null character; exact (iff) |
| C67 | same, interleaved with arriving frames; `Spec/SocketKernel` is the kernel's socket (bound, filters, queue) | partial: frames arriving between bind and filters |
| C68 | same, for `reconfigureFilters` | partial: frames already queued stay |
| C69 | `Model/SocketCtl`: control buffers and `msg_controllen` byte by byte, the `CMSG` loop; `Spec/SocketCtl`: the kernel's `put_cmsg`; refinement to `Model/SocketCan`, invariant on lengths over histories | proved |
| C70 | same; drop counts per place of a batch | partial: no room beside the time stamp; `rx_dropped` stays 0 |
| C71 | same; what the headers hand to `sendmmsg` | partial: left-over control data is handed over |
| C72 | `Model/Boot`: `Reset_Handler` instruction by instruction, `SystemInit`; constructors and `main` are arbitrary functions, called functions may write to the stack; composed with C61 | full |
| C73 | same; the vector table as the strings of the assembler file, the linker's choice between weak and strong symbols, `IRQn_Type` as in the header; tables decided over all entries and lifted; which entries `main.cpp` takes, exactly (`C73_own_loops`) | full |
| C74 | same; `Spec/Boot` has the watchdog as an automaton, invariant over later accesses | full |
| C75 | `SystemSoftwareReset` | full |
| C76 | `Model/OnTarget`: `main` with `PORT_init`, `LPUART1_init`, the clock functions; `Spec/Serial` has the line tick by tick, a receiver that samples in the middle of bits, meanings of registers | partial: selectors of pins and clock 0 or 2 before; the receiver's reading proved for all byte sequences and gaps by induction; exact (iff) earlier register values and clocks, and exactly the terminal rates that work |
| C77 | same; log of accesses with the gate at that time, log of writes to PCC | full (one log entry per call of a serial port function) |
| C78 | same, composed with C57 and C64 | full: induction over the tests' output and over rounds; termination by fuel |
| C79 | same, with C58 | partial: core and bus right, flash 26 2/3 MHz, `SystemCoreClock` not updated |
| C80 | `Model/CoreClock`: writes with the status last seen | partial: all but configuring an oscillator that is already on; exact (iff) |
| C81, C82 | `Model/CopyBits` again, under the second reading of the functions, that of the validation suite's diagrams: `Spec/BigEndian` reads arrays as numbers, most significant byte first, and a copy as a shift by `offset % 8`. From the closed forms of C30, C31 bit by bit | partial: exact condition on the contents (iff) |
| C83 | `Model/Suite`: the tests of the validation suite as programs in `Check` (a failed assertion and undefined behaviour are different outcomes), written over interfaces (`Copies`, `Allocator`) and run here with the library's models. Copies and frames by evaluation (frames for all 65 MTUs, an exact finite domain), pools by an invariant over all sequences of tests, times symbolically in the width | partial: exact set of MTUs (iff) |
| C84 | the same tests for arbitrary implementations; what passing implies is proved by inverting the runs (for copies an iff; for pools also after any tests, so that nothing leaks: `C84_pool_no_leak_partial`; comparing the pointers is the assertion that is missing for different blocks: `C84_pool_compared_partial`, `C84_compared_catches`, and why it would still not be all: `C84_compared_not_enough`); counterexamples `libraryCopies` and `sameBlock` | partial |
| C85 | for every right implementation: copies by uniqueness of the right result at the tests' arguments, pools by the invariant `Counts`; `ideal` shows that right copies exist | proved |
| C86 | `Model/MathTest`: `test/native/test_util_math.cpp` for arbitrary operations, symbolically in the width | partial: exact conditions |
| C87 | `Model/Containers`: `std::vector` (as libstdc++ has it, growth policy a parameter) over `Model/Pool`; the spec is a list of bounded length. Refinement by the invariant `VecInv` over all sequences of calls, among other users of the pool (`Own`, `Frame`) | partial: iff `BlockSize * sizeof(T) <= sizeof(Block)`; with exceptions the exact behaviour however few blocks are free |
| C88 | same file, `std::unordered_map` (rehash policy a parameter); the spec is an association list. Refinement by `MapInv` | partial: the exact behaviour of every sequence of calls (`C88_behaviour_partial`), right iff at each insertion the blocks suffice and the bucket pointers fit one block; closed form for libstdc++ up to 13 elements |
| C89 | same file, the four container tests of the suite as programs | partial: vectors for all pools meeting the requirements and all libraries; map test exact (iff) |
| C90 | `CompileTime.lean`: types by kind, size and alignment; layout of derived classes; per statement of a client program the checks of the members it instantiates (assertions in constructors fire only there); overload resolution of the saturating functions | partial: exact (iff) for all classes and all programs; specification = documented template parameters and declared-before-used; what would compile without the assertion on signedness (`C90_unsigned_abs_partial`) |
| C91 | same file, the nine compile tests over every subset of the assertions, every compiler and every build tool | partial: exact (iff) |
| C92 | `Model/BuildConfig.lean`, `apply_flag_set`, the macros of `build_config.hpp` and `introspection.hpp` as functions of options, build type and flags | partial: exact (iff) per option |
| C93 | same file, last flag decides (specification by position, fold in the model), feature macro; the four flag sets in full | partial: exact (iff) |
| C94 | `Model/BuildScripts.lean`, `ARGC`/`ARGV`, `foreach(RANGE)` reading `7-1` as 7, command lines as lists of arguments | partial: exact command lines |
| C95 | same file, `errexit`, groups of the pipeline, the command `[` | partial: exact (iff) |
| C96 | `Model/GenHeader`: the whole header and the C++ rules for names, macros, hidden types, members and initializers, for any implementation's further macros and global names | partial: exact (iff) |
| C97 | `Model/PoolRace`: the steps of C25 with vector clocks for happens-before; ordinary accesses recorded; clients synchronize, hand over, read and write | partial: false in every pool, also for calls that do not overlap; invariant over all runs whose calls are ordered (lock: refinement to those), which refine the race-free runs of C25; exact (iff) for one undisturbed `allocate` |
| C98 | the `CMSG` loop of `Model/SocketCtl` on arbitrary bytes; `Spec/CtlData`: layout of control messages as an inductive relation between bytes and messages | partial: false for control messages too short for their type; induction over the layout for all complete ones; exact (iff) for undefined behaviour, over all bytes |
| C99 | the two functions of C30 and C31 one after the other | partial: exact (iff) for all offsets and lengths, by composing the closed forms; the faults of the two functions do not cancel out |
| C100 | `Model/Registers.lean`: the whole header `S32K148.h` but for interrupt numbers and instance lists, as tables (generated from it by a script), the field macros, and the layout of structures | proved: lemmas about masks for any field, a check of the tables by the kernel (`decide +kernel` over the whole finite table), lifted to all register contents and values |
| C101 | the field macros with `\|=`; the registers after `setup`, `SystemInit`, `SystemSoftwareReset` | partial: exact (iff) for every field; what is assigned is decoded with the names of the header |
| C102 | `Model/CopyBitsOverlap.lean`: both functions again with both pointers into one array | partial: exact (iff) condition for each function by a loop invariant (no overlap hazard) and by counterexamples for all other positions; in-place erasure for all sizes |
| C103 | `Model/SocketCalls.lean`: the arguments of `socket`, `sendmmsg` and `recvmmsg`; `Spec/SocketSend.lean`: when Linux waits, refuses or takes a message | partial: exact (iff) condition for waiting, by induction over messages and wake-ups; `read` never waits |
| C104 | the same, with the MTU and `CAN_RAW_FD_FRAMES` | partial: exact (iff) condition for success; otherwise nothing is sent |
| C105 | `read` over histories of calls (`Spec/SocketCtl`) with the two clocks of the kernel (`Spec/WallClock.lean`) | partial: the difference of any two time stamps; exact (iff) condition for the order |
| C106 | `Model/PoolInit.lean`: the guard of the local static, the writes of the constructor one by one, on top of `Model/PoolConc.lean` | proved: invariant over all interleavings, refinement of runs from `cinit`; every thread can return; without thread-safe statics under the documented condition, which is shown to be needed |
| C107 | `Model/LoopBackClock.lean`: `run_test` with its readings of the clock and everything it prints | proved: forgetting the clock gives the run of C51; invariant over rounds for the times of reports and for statistics as counts of the messages received |
| C108 | `Model/PoolConc.lean`, accesses counted in `Spec/PoolTime.lean` | partial: accounts as invariant over all interleavings; the bound is reached; full statement refuted |
| C109 | `Model/SocketCan.lean` (`read`), `Spec/Drain.lean`: queue and error of a socket over time | partial: induction over histories of arrivals, errors and calls; exact condition for each result; full statement refuted |
| C110 | `Model/SocketCan.lean` (`write`, `read`), `Spec/Stream.lean`: two applications, kernel and bus | partial: invariant over all interleavings (got, waiting and pending frames make up the list); exact (iff) for which frames; full statement refuted |
| C111 | `Model/TestSys.lean` (`write`), `Spec/Stdio.lean`: newlib-nano's output stream over an arbitrary device | partial: induction over the program and its texts; exact (iff) for which programs everything arrives; the repaired stub proved correct for all; full statement refuted for every buffer size |
| C112 | `Model/Coverage`: the commands of the reports as steps on the build directory (notes, counters, info files), make's decision what to run, histories of edits and builds, interleaved jobs | partial: invariant over all histories; exact content of each report for every interleaving |
| C113 | `Spec/EventLoop`: how Linux answers `ppoll`, histories around a group; the code is `Model/SocketGroup` | induction over the history, one socket at a time; the sockets after a history as a function, so that a round is a fold; the answers of `ppoll` classified by C44 |
| C114 | `Model/Time` | closed form of sum and difference for every width, then linear arithmetic; exact (iff) conditions; full statement refuted part by part |
| C115 | `Model/Can` (comparison), `Spec/Arbitration`: arbitration bit by bit | full: induction over the bits (those still sending have the smallest prefix), value of the field, induction over the frames sent |
| C116 | all statements on duration and time objects in one store (Model/TimeProgram); ideal saturating machine (Spec/TimeProgram) | one statement has the ideal effect iff harmless (exact); induction over programs: trace is the ideal trace iff all statements are harmless; programs without subtraction and negation of durations are always harmless; every object stays in its range whatever happens |
| C117 | unit tests of Model/MathTest over arbitrary operations | passing all tests iff the listed answers (per kind of pair, every width from 2 on); any other answer can be changed at will; complete iff the width is 1; for mixed types passing excludes exactness |
| C118 | schedule of nested, optionally masked interrupts over the steps of Model/PoolConc (Model/PoolInterrupt); table of safe usages (Spec/PoolInterrupt) | invariant: who is inside which call, and a candidate that no level above can take stays in the list; hence race-free (C25, C26); for every other usage a run that breaks the pool is built, for every pool |
| C119 | `Model/Message`: `pack`, `unpack`, one call per field | C119 partial: induction over the fields with the closed forms of C30, C31; the converse with a marked field among zeros, one bit of which is lost, and monotonicity of packing zeros |
| C120 | `Model/MoveBits`: `moveBit`, `moveBits`, messages with them | C120 proved: one bit from the closed forms (C30, C31, offset below 8, rest of the byte), induction over the length and over the fields |
| C121 | `Model/Configure`: one run as a function of what is there and of the directory of external projects; histories of runs and deletions | C121 partial: the environment is what the first run since the last deletion left (induction over the history); exact (iff) |
| C122 | `Model/SharedPool`: several containers, each with the functions of `Model/Containers`, on one pool state; `Spec/SharedPool`: lists, finite maps and a count of blocks | `C122_independent`: refinement with an ownership invariant (`Lemmas/SharedPool`: each container owns its blocks, no block has two owners, other owners' blocks are framed); `C122_vector_alone`, `C122_map_alone` project the specification to one container; `C122_vectors_enough` by induction on the program |
| C123 | `Spec/Redundant`: the transmit sides of all sockets of a group, histories of `Group.write` and of frames leaving | C123 partial: refinement to one socket per interface, projection to each interface by induction on the history (`C123_alone_partial`), exact condition with the invariant that room minus queue does not change while nothing leaves (`C123_returns_iff_partial`, `C123_never_stops_iff_partial`); `C123_select_partial` from C113 |
| C124 | `Spec/Redundant`: `Waits` (histories of an application that writes only when the socket has room), `hasRoom` (`sock_writeable`) | C124 partial: invariant over histories (`waits_inv`), `C124_select` from C113, `C124_taken_iff_partial` exact, `C124_spins_partial` |
| C125 | programs as trees of allocate, deallocate, read and write; any interleaving with `Pool.allocate` and `Pool.deallocate`; specification: a program alone with an arbitrary allocator | invariant over schedules (the threads' blocks with those of the others are one client's history); weakest-precondition rule, sound and complete; concrete schedules for the necessity |
| C126 | `Spec/TxQueue`: the containers (`Kind.insert`, `Kind.takes`, `QRun`), the queue wanted (`wanted`: first of the winners of arbitration); operators of `Model/Can` | C126 partial: simulation between container and wanted queue (`Sorted`: sorted, same frames per identifier in order), `C126_multiset_partial`, `C126_set_partial`, `C126_priority_queue_partial` (ids in order, permutation), `C126_first_come_partial`; witness `C126_full_statement_fails` |
| C127 | `Model/GroupCalls` (`Group.Call`, `Group.Session`: sequences of the calls modelled in `SocketCan`/`SocketGroup`); `Spec/GroupCalls`: what the comments allow (`Allowed`), what the example defines (`DefinedFor`) | C127 partial: exact domain per call (`C127_call_partial`) lifted to all sequences by induction (`C127_session_iff_partial`), `C127_allowed_partial`; witness `C127_full_statement_fails` |
| C128 | `Model/Trace`: `read` with all that it prints, traces of the destructor and of the set-up; `Spec/Trace`: reading a text (`linesOf`, `tells`, `told`) | C128 partial: every `printf` is one line that tells a frame or nothing (`Line`), induction over loops and sessions: `C128_told_partial`, `C128_same_partial`; witness `C128_full_statement_fails` |
| C129 | `Model/GroupThreads`: `write`, `read`, `reconfigureFilters`, `select`, `getStatistics` as programs of single reads and writes of members, threads, schedules; `Spec/GroupThreads`: a thread alone (`alone`), `Race`, `KeepApart`, `Disturb` | footprints of programs, invariant over schedules (the others change nothing a thread accesses), each program run alone refines the model of the function (`call_run`): `C129_no_race`, `C129_undisturbed`, `C129_all_end`; exact: `C129_race_iff`; what goes wrong otherwise: `C129_needed_write`, `C129_needed_read` |
| C130 | `Model/Macros`: tokens, uses of macros, what the preprocessor makes of them in each configuration; `Spec/Macros`: the grammar of statements as a relation between texts and trees, what trees do, macros read as functions | induction over derivations: the reading of the text before preprocessing is carried over to the text after it, uniqueness of readings, and texts that are stuck; simulation between runs: `C130_compiles_partial` (exact), `C130_does_partial`, `C130_same_partial`, `C130_off_partial`; `C130_full_statement_fails` |
| C131 | models of C36–C49; `Spec/Discard`: the life of a socket (calls, arriving messages, errors, reads), `GetsOnly` | invariant (bound and filtered) over histories, what is accepted and delivered is what matches, joined with C109 after the queue was seen empty: `C131_after_start`, `C131_after_reconfigure`; that discarding is needed: `C131_needed` |
| C132 | `Model/ByteOrder`: the two macros for each compiler, arguments as texts of operands and operators; `Spec/ByteOrder`: precedence and association of operators as a relation between texts and values, the order of bytes | the relation has exactly one value for each text (induction, unique splitting), bits: `C132_reversed_partial`, `C132_one_value_partial`; exact for two operands: `C132_iff_partial`; `C132_full_statement_fails` |
| C133 | `Spec/Sender`: the sender of C110 with the queue of C126, and a record of what happened to the queue (one `pop` for every frame erased) | induction over the steps: what was taken from the queue is the list of C110 at all times, and what is taken is what C126 wants: `C133_bus`, `C133_vcan`; the queue can always be emptied: `C133_can_finish` |
| C134 | `Model/PoolQueue`: the tree of nodes in blocks of the pool, searched with `operator>` on frames read from memory; `Spec/PoolQueue`: the queue wanted with room for so many | refinement by an invariant (nodes are blocks, in order the frames of the queue): `C134_queue`, `C134_as_wanted`, `C134_destroyed`; what goes wrong without exceptions: `C134_without_exceptions`; that nodes fit in every program that is compiled, and what it is good for: `C134_accepted`, `C134_small_block` |
| C135 | `Model/Deque`: libstdc++'s map and buffers of a deque, in blocks of the pool; `Spec/Deque`: first in, first out | invariant over all sequences of calls (one buffer, holding the queue): `C135_fifo_partial`; the other side: `C135_limit_partial`, `C135_refused_partial`, `C135_numbers`; refuted as a whole: `C135_full_statement_fails` |
| C136 | `Model/SocketGroup`, `Model/SocketCan`; `Spec/Links`: two groups, a bus for each interface, buses that can be cut, the receiver's counting | invariant per bus (that of C110, with what is lost still to be sent) and of the merged sequence: `C136_bus`, `C136_vcan`; every live bus can finish: `C136_can_finish`; none without: `C136_all_cut` |
| C137 | `Model/TimeTest`: the tests of lvs/time.hpp for any classes; `Spec/TimeTest`: right classes | exact meaning of passing (iff): `C137_duration_meaning_partial`, `C137_time_meaning_partial`; right classes pass: `C137_right_pass_partial`; wrong classes that pass: `C137_ignoring_passes`, `C137_unordered_passes`, `C137_indifferent_passes`, `C137_full_statement_fails`; a class refused: `C137_plain_move_refused` |
| C138 | `Model/FrameTest`: the tests of lvs/media/can_frame.hpp for any class; `Spec/FrameTest`: right classes | exact meaning of passing (iff): `C138_meaning_partial`; right classes pass: `C138_right_pass_partial`; wrong ones as well: `C138_careless_passes`, `C138_full_statement_fails`; tests without effect: `C138_two_say_nothing` |
| C139 | `Model/Can`, `Model/SocketCan`, `Model/SocketGroup`; `Spec/Transfer`: cutting, tail bytes and reassembly, on top of `Spec/Sender` and `Spec/Links` | cutting and reassembly by induction on the payload, joined with C17, C133 and C136: `C139_queue`, `C139_can_finish`, `C139_redundant`; `C139_frames_exist` |
| C140 | `Model/SocketCan`, `Model/Time`; `Spec/WallClock`, `Spec/Timeout`: the comparison an application makes | C105 joined with C114: `C140_exact_partial`, `C140_iff_partial`, `C140_no_change_partial`; refuted by `C140_full_statement_fails` |
| C141 | `Model/Can`, `Model/SocketCan`; `Spec/TxQueue`, `Spec/Sender`, `Spec/Waiting`: whose turn it is, by counting | the frame's place in the sorted container followed by induction on the history (`track`), joined with C126 and C133: `C141_queue`, `C141_sender`, `C141_no_limit` |
| C142 | `Model/PoolList`: nodes in blocks of the pool; `Spec/PoolList`: a list with room for so many | refinement by an invariant (nodes are blocks, in order the elements of the list): `C142_list`, `C142_for_ever`; what goes wrong without exceptions: `C142_without_exceptions`; that nodes fit in every program that is compiled, and what it is good for: `C142_accepted`, `C142_small_block` |
| C143 | `Model/PoolQueue`, `Model/Can`; `Spec/PoolQueue`, `Spec/Waiting`, `Spec/PoolWait`: the calls not refused | a queue with limited room simulates one without on the calls not refused (`bounded_admitted`), joined with C134, C126, C141: `C143_refused`, `C143_wait`, `C143_inversion` |
| C144 | `Model/SharedQueues` over `Model/PoolList`, `Model/PoolQueue`; `Spec/SharedQueues`: a family of lists and queues, each with the room that the others leave | an invariant over all containers (blocks apart, each container's elements in its blocks); a call on one is C142 or C134 with the other containers as other users (`World.step`): `C144_shared`, `C144_given_back`, `C144_without_exceptions`; from these `C144_reserved`, `C144_no_reserve` |
| C145 | `Model/PoolQueue`, `Model/Can`; `Spec/Transfer`, `Spec/GivingUp`: frames offered and answers to them | induction over transfers with the receiver in any state (`collect_tried`, `collect_erase`), joined with C126, C134, C143, C133: `C145_giving_up_partial`, `C145_bus_partial`, `C145_one_lost_partial`, `C145_run_lost_partial` (exactly which runs of lost frames go unnoticed: those of even length from the middle); `C145_full_statement_fails` |
| C146 | `Model/ResultTest`: the tests, for any implementation; `Spec/ResultTest` | by cases and monotonicity: `C146_right_passes`, `C146_library`, `C146_asks` (exactly what is asked), `C146_graded_partial`, `C146_one_more`; `C146_full_statement_fails` |

## 4. Findings
Defects found while modelling are listed here with the theorem that proves each; see the end of this file, section 6.

## 5. Mutation testing
`seeded/LOG.jsonl` has one line per seeded fault: the definition, the edit, the claim it breaks, whether it was caught, the
declarations that failed, the property theorems that were then no longer checked because they depend on those, and what was
tightened. Faults are seeded in a scratch copy outside `/verif`. A fault is often caught in a lemma; that alone does not show that a property
theorem is false of the faulty program, so each such case was compared with the statements by hand. Lines whose note says "only because
a proof step stopped working" are cases where the statement was too weak; they name the theorem that was added or
strengthened. Edits that turned out to leave the behaviour unchanged are marked "equivalent".

## 6. List of findings
Each is proved by the theorem `Cnn_full_statement_fails` unless another name is given.

| Property | What the code does instead |
|---|---|
| C01, C02, C07 | saturating signed arithmetic with left operand 0 at 32 bits or more takes `abs` of the minimum: undefined; in practice a wrong value. Even `0 - 0` of two durations |
| C04, C05, C11 | mixed arithmetic converts a negative right operand to unsigned instead of taking its magnitude |
| C09 | `getAbs` of the most negative duration is undefined |
| C12 | moving an object onto itself resets it |
| C15 | for an MTU that is not a CAN FD length a length within the MTU gets a DLC beyond it |
| C17 | the constructor does not check the DLC against the MTU |
| C25 | the pool's list is subject to the ABA problem, and a block is published before its link is stored |
| C28 | `allocate(n)` treats `n` as a number of bytes |
| C30–C34 | both bit copies are right only for whole bytes at offset 0 and for the rest of the first byte; other arguments copy wrong bits, touch bytes beyond the end and report more bits than asked for |
| C36 | a bad index leaves the output count unset; more than four frames leave the arrays |
| C37, C40 | DLC and length are confused in both directions; flags and trailing bytes of earlier frames are sent |
| C39, C41 | frames with identifier 0 are dropped, standard and remote frames are delivered |
| C42 | the kernel's cumulative drop counts are summed |
| C43 | microseconds are passed as nanoseconds; a time-out of 0 is undefined |
| C45, C47 | 256 interfaces: the loop does not end |
| C46 | mask bit 29 turns a filter into an error filter; a null array of more than 512 filters is dereferenced; 2^29 filters overflow the length |
| C47, C50 | descriptor 0 is refused, and leaked |
| C48 | a failed start keeps the old group |
| C49 | interfaces report their position in the list of required ones, not in the group |
| C52 | the second `--device NAME` is a null pointer, the second `--device=NAME` is rejected |
| C53 | fractional constants are truncated, constants from 2^63 on do not compile |
| C54 | array and composite fields are left out; unions and services have no members |
| C55 | malformed output of the formatter passes the check |
| C57 | `_write` reports 0 bytes written |
| C59 | the example succeeds though a device is missing |
| C62 | an image larger than the flash links |
| C65 | the include guard has no version |
| C66 | a socket that refuses timestamps is used nevertheless; `strncpy` (SocketCANInterfaceManager.cpp:97) ends a name at a null character, so another interface is opened than asked for and reported |
| C67 | the socket is bound (108) before its filters are set (225); frames in between are received unfiltered |
| C68 | frames queued before a change of filters are still delivered |
| C70 | `ControlSize` (hpp:55) has room for the time stamp only: the drop count never arrives and `rx_dropped` stays 0. With time stamps off, counts are cumulative but added up (179), and after one message without a count the place's `msg_controllen` is 0 for good, since `read` never sets it again |
| C71 | `write` passes the receive headers to `sendmmsg` (120) with their control buffers: uninitialised memory before the first read (`trx_control_` is not initialised, 47–60), an old time stamp afterwards; a kernel which checks control data answers `EINVAL` |
| C76 | `PORT_init` and `LPUART1_init` or the selectors into the registers (main.cpp:61–62, LPUART.c:42): right only from 0. Comments say 9600 baud (LPUART.c:39, main.cpp:122), it is 115942 (`C76_rates_partial`) |
| C79 | flash clock 26 2/3 MHz instead of the 20 MHz of main.cpp:119; `SystemCoreClockUpdate` is never called, `SystemCoreClock` says 48 MHz at 80 MHz |
| C80 | `SOSC_init_8MHz` writes SOSCCFG (clocks_and_modes.c:46) without turning the oscillator off and before looking at the lock |
| C81 | moved bits are or-ed with the old contents of the destination (memory.hpp:382–388): a one left there stays |
| C82 | a byte of the destination gets back the low bits of the same byte of the source instead of those of the byte before (memory.hpp:341–342) |
| C83 | with an MTU below 8 the tests write past the frame (lvs/media/can_frame.hpp builds frames of 8 bytes); with an MTU between CAN FD lengths `SetDataLength` fails |
| C84 | the suite accepts the bit copies with the faults of C30, C31 and C81, and allocators that hand out one block many times, as it never compares pointers; nor does it give back some blocks and keep others |
| C86 | `SaturatingAddMaxMinPlusOne` (test_util_math.cpp:205–210) asks for `max - (max/2 + 2)` where the sum is `max - max/2`; it passes because of the fault of C04. `SaturatingSubMaxFromZero` (342–352) computes `0 - max`, which is the undefined case of C02 |
| C87 | `allocate` compares the number of elements with `BlockSize` (memory.hpp:142, 280), which is a number of bytes, and `max_size()` says the same (memory.hpp:301–304): a vector of `int` in 8-byte blocks may reserve 8 elements and then writes 32 bytes |
| C88, C89 | the same fault hits the bucket array of `std::unordered_map`: with libstdc++ (13 buckets at the first insertion) on a 64-bit machine the validation suite's own map test, at its stated minimum of 72-byte blocks, clears 104 bytes in a block of 80, which cuts the free list (`C89_lost_blocks`). On the 32-bit board it fits |
| C90 | `std::is_signed` is true of `double`, and `!std::is_signed` is true of `bool`, pointers and classes: durations over `double` and times over `void*` can be made (`C90_full_statement_fails`). A time whose second argument is itself a time passes every check. memory.hpp:197 documents `sizeof(T) >= BlockSizeParam`, the opposite of the assertion at 227 |
| C91 | no compile test covers the pool allocator's assertions; the tests of `InterfaceGroup` pass without the assertions wherever arrays of no elements are errors (the repository's own `-pedantic -Werror`); compile_tests.cmake:36 passes `--always-make` to the build tool, so with Ninja every compile test passes whatever the library is |
| C92 | common.cmake:47 asks whether `LIBUAVCAN_ENABLE_EXCEPTIONS` is defined before it sets `LIBUAVCAN_INTROSPECTION_ENABLE_ASSERT`: a user's `=0` is overridden in a debug build, and debug builds with exceptions do not assert; options given as `ON` are compiled as `#if ON`, which is 0; `CMAKE_CXX_FLAGS` is discarded; `debug` is not `Debug` |
| C93 | `"-fexceptions" IN_LIST` ignores a later `-fno-exceptions`; the fallback on `__cpp_exceptions` makes the pool return null with compilers that have exceptions but no feature macros |
| C94 | Findnnvg.cmake:34–36 counts from argument 6 though there are five names, and appends `" -I dir"` as one argument; linux/tests.cmake:28 uses `ARG_TEST_NAME`, which is no parameter there |
| C95 | pipeline.yml runs neither native-gcc-build-and-test-exceptions.sh nor linux-build.sh; ontarget-s32k-test.sh:33 lacks a space before `]`, so that the artifacts are never downloaded |
| C96 | the templates write DSDL names as they are: keywords of C++ (`register`, `delete`, …), macros of `<cstdint>` (`INT8_MAX`, …), a field with the name of a type used (`uint8_t`), a constant with the name of its type or of the include guard, and constants from 2^63 on give headers that do not compile |
| C97 | `deallocate` stores the link of a block after publishing it, with an ordinary store: thread A gives back, thread B allocates later, without a lock: data race, even with no overlap; and an `allocate` reads the first bytes of a block that another thread may already use |
| C98 | the loop asks for `msg_controllen >= sizeof(timeval)` (170) and `cmsg_len >= 4` (177, always true, since `cmsg_len` counts the header), not for data in the control message: a truncated or empty `SO_TIMESTAMP` message yields the time of an earlier message; two empty messages let it read behind the buffer |
| C99 | 12 bits packed at offset 4 come back with bits 4 to 7 of the destination in place of those that were packed, and the second byte missing |
| C101 | `PORTC->PCR[6] \|= PORT_PCR_MUX(2)` on a pin at alternative 1 makes it alternative 3; `SPLLDIV1(2)` set with `\|=` on 1 makes it 3 (divide by 4) |
| C102 | in place with an offset of whole bytes, both functions erase every byte they access; moving data towards the end of the same buffer repeats or mixes bytes |
| C103 | `write` waits for the bus when the send buffer is full (for ever if nobody acknowledges) instead of returning `BufferFull` |
| C104 | without CAN FD (disabled, or a CAN 2.0 device) every `write` fails with `EINVAL`: each message is 72 bytes |
| C105 | a message at 12:00:05, the clock is set back by a second, a message 10 µs later: its "monotonic" time stamp is almost a second smaller |
| C108 | `allocate` (146–157) starts over whenever another thread has been faster: there is no bound on its length (a thread that keeps taking and giving back holds it up for ever). CONTRIBUTING.md asks for deterministic time by default |
| C109 | `read` (141–254) returns `Success` with zero frames if all messages it takes are error messages or otherwise undeliverable; libuavcan.hpp:49–52 promises `SuccessNothing`. An application that stops when it got no frame leaves frames waiting; one that stops at `SuccessNothing` does not |
| C110 | On a real CAN FD bus frames of more than 8 bytes do not survive: DLC 9–12 arrive as DLC 12 (24 bytes), DLC 13–15 as a frame with the invalid code 16 and no data (`write` 115–116 and `read` 238 use the DLC as length; on a virtual bus the two mistakes cancel, so the loopback test does not show it) |
| C111 | Texts of more than `BUFSIZ` (1024) bytes between two flushes are cut off on the target: `_write` sends all bytes but returns 0 (test_sys.c:59), so newlib takes each full buffer for a failed write and drops the rest of the text; every `fflush` with something to send reports an error |
| C112 | coverage.all.info (tests.cmake:98–107) depends on custom targets, which have no file, so make never writes it again: after an edit `cov_all` succeeds and reports the old coverage. All tests zero and capture the same counters (Findlcov.cmake:52–74), so with `make -j` a report can lose what its test executed. The build server cleans first and uses one job |
| C113 | SocketCANInterfaceGroup.cpp:36–40, 110–134: `getInterfaceCount` says at most 255, `select` waits for all interfaces: in a larger group a message at an interface that is not counted is not read and makes every `select` return at once |
| C115 | can.hpp:456–474: the comment on `priorityHigherThan` says that it returns true if the identifier of `rhs` is smaller; the code does the opposite, which is what the bus does |
| C117 | the unit tests of saturating arithmetic determine the operations for bool only; for an unsigned and a signed type they can be passed only by operations that are wrong (the expected sum of max and min + 1 is 2 too small) |
| C118 | deallocate interrupted between the exchange and the store of memory.hpp:175 by a handler that allocates breaks the pool, whatever its size; so does allocate interrupted by handlers that allocate and give back |
| C119 | Messages with a field that crosses a byte boundary away from offset 0 (for instance 32, 2, 3 and 19 bits) can neither be packed nor unpacked with the bit copies, and the faults of the two do not cancel out. Small fields come back with bits of their neighbours in the variable. `C119_round_trip_iff_partial`, `C119_clean_iff_partial` |
| C121 | Findvirtualenv.cmake:15–26 ignores the results of `virtualenv` and `pip` and does nothing if the directory exists: after one run without network, configuring fails for ever, also with everything there (`C121_fails_for_ever_partial`); changed requirements are never installed |
| C123 | With redundant interfaces, a dead bus whose transmit queue is not shorter than the send buffer of its socket stops the whole application: the sockets block, and `select` reports `Success` because the other interface has room. |
| C124 | `select` says `Success` although the next `write` says `BufferFull`, as long as the send buffer takes more than twice the messages that the transmit queue takes (the usual case): an application that waits with `select` spins. |
| C126 | The operators of `Frame` make frames with one identifier equivalent: a `std::priority_queue` may send the frames of a transfer in any order, a `std::set` keeps only the first. |
| C127 | Of all calls that the comments of the interface allow, `select` with a timeout of zero alone is undefined. |
| C128 | Traces of received frames do not name the interface: the trace of redundant interfaces does not tell which one received a frame. |
| C130 | `LIBUAVCAN_ASSERT` is a block `{ assert(…); }` when turned on (introspection.hpp:49–52), and `ENABLE_INTERRUPTS()` has its own semicolon with GCC (s32_core_cm4.h:98): `if (c) LIBUAVCAN_ASSERT(d); else …` compiles with introspection turned off and not with it turned on. `LIBUAVCAN_ASSERT(std::is_same<A, B>::value)` and `LIBUAVCAN_TRACEF("s", "text")` compile only when turned off. With `NDEBUG` an assertion that is turned on does nothing |
| C132 | `REV_BYTES_32(a, b)` and `REV_BYTES_16(a, b)` use `a & 0xFF000000U` without parentheses around `a` (s32_core_cm4.h:125–126, 134–135): with compilers other than GCC, IAR and Green Hills `REV_BYTES_32(x | y, z)` computes something else |
| C135 | `PoolAllocator::allocate(n)` takes the number of elements for a number of bytes (C20–C23, C88), so a `std::deque` or `std::queue` gets one block for a buffer of 512 bytes and writes beyond it once as many elements have passed through it as fit into the block, even if no more than one ever waits. A queue of bytes cannot be constructed at all. |
| C137 | The tests for times use `+` and `-` only where they saturate: a time class whose `+` and `-` return the left operand passes. Comparisons are only tested between two default objects: classes without any order pass, and a duration class for which all durations are equal passes with `+=`, `-=` and unary `-` that do nothing. On the other hand, a class whose move constructor copies, as that of every plain number does, is refused: what has been moved from must be 0. |
| C138 | Two of the twelve tests for frames do not test the class under test: GetDLC calls the functions of the base class, which are not virtual, and FrameNotEqualWithFlags uses the library's own class. The other ten use no frame longer than 8 bytes: a class that truncates CAN FD frames to 8 bytes, sets every length to the MTU, translates every code to 0 and orders frames by the last bit of the identifier passes. |
| C140 | A time-out computed from the time stamps of frames is wrong for some length as soon as the clock was set between the frames |
| C143 | A full queue refuses frames of any priority: one that holds only frames of low priority refuses a frame of the highest (`C143_inversion`); applications that need a guarantee must keep blocks for it: a queue of its own for each priority is not enough if the allocators have the same numbers of blocks and bytes, as these share one pool (`C144_no_reserve`); what is enough is in `C144_reserved` |
| C145 | an application that goes on offering the rest of a transfer after the queue has refused frames of it can make receivers take a payload that nobody sent, as the toggle bit does not show the loss of two frames (`C145_full_statement_fails`); it must give up the transfer (`C145_giving_up_partial`) or rely on a check sum |
| C146 | no test asks whether `BufferFull` (value 0) is a failure: with `<` instead of `<=` in `operator!` the suite passes and a full buffer counts as success (`C146_full_statement_fails`); one assertion more is enough (`C146_one_more`) |
