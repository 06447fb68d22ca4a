/-!
# What the compiler accepts

Model of the `static_assert`s and SFINAE conditions of `libuavcan/include/libuavcan/time.hpp`,
`util/math.hpp`, `media/can.hpp`, `media/interfaces.hpp` and `platform/memory.hpp`, and of the tests
under `test/compile` that expect a translation unit to be rejected.

A member function of a class template is instantiated only when it is used, and its `static_assert`s
fire only then; a `static_assert` in the class body fires whenever the class is instantiated. So the
model gives, for every statement of a client program, the list of checks the compiler makes because of
it, and a program compiles if every check of every statement succeeds.

Simplifications: a type is known by the properties the headers ask about; a client program is
straight-line code over variables of one class; diagnostics other than errors are ignored except where
a compile test depends on them (`Compiler`).
-/

namespace Uavcan.CompileTime

/-! ## Types -/

/-- The kinds of type the type traits of the headers tell apart. `cls fromZero`: a class, with or
without a constructor from the literal 0. -/
inductive Kind where
  | signedInt | unsignedInt | boolean | floating | pointer | enumeration
  | cls (fromZero : Bool)
  deriving DecidableEq, Repr

/-- A type: its kind, size and alignment, and a name that tells apart types of the same kind and size
such as `long` and `long long`. -/
structure Ty where
  kind : Kind
  size : Nat
  align : Nat
  name : Nat := 0
  deriving DecidableEq, Repr

/-- Facts of the language: sizes and alignments are positive and the alignment divides the size. -/
def Ty.Ok (t : Ty) : Prop := 0 < t.align ∧ t.align ∣ t.size ∧ 0 < t.size

/-- `std::is_signed` (used in time.hpp:72, 249 and math.hpp:37, 53, 75, 120, 162, 188, 212–213,
238–239): true of arithmetic types with negative values, floating point included. -/
def isSigned (t : Ty) : Bool :=
  match t.kind with
  | .signedInt => true
  | .floating => true
  | _ => false

/-- `std::is_integral` (used in math.hpp:37, 53, 75, 120, 162, 188, 212–213, 238–239). -/
def isIntegral (t : Ty) : Bool :=
  match t.kind with
  | .signedInt => true
  | .unsignedInt => true
  | .boolean => true
  | _ => false

/-- Whether `usec_(0)` and `usec_ = 0` are well formed (time.hpp:68, 86, 137, 245, 269, 312). -/
def zeroOk (t : Ty) : Bool :=
  match t.kind with
  | .enumeration => false
  | .cls fromZero => fromZero
  | _ => true

/-! ## Overloads of the saturating functions, math.hpp -/

/-- math.hpp:73–76, 118–121: both operands of one signed integral type. -/
def overloadSigned (l r : Ty) : Bool := l == r && (isIntegral l && isSigned l)
/-- math.hpp:161–164, 187–190: both operands of one unsigned integral type. -/
def overloadUnsigned (l r : Ty) : Bool := l == r && (isIntegral l && !isSigned l)
/-- math.hpp:210–215, 236–241: unsigned on the left, signed on the right. -/
def overloadMixed (l r : Ty) : Bool := isIntegral l && !isSigned l && isIntegral r && isSigned r

/-- A call `saturating_add(l, r)` or `saturating_sub(l, r)` finds exactly one overload. -/
def saturatingOk (l r : Ty) : Bool :=
  [overloadSigned l r, overloadUnsigned l r, overloadMixed l r].count true == 1

/-! ## Layout of a class derived from `Base` -/

/-- A non-static data member the derived class adds (the test classes' `uint8_t more_`,
test_time_001.cpp:11 and test_time_003.cpp:11). A pointer to a table of virtual functions counts as
such a member. -/
structure DataMember where
  size : Nat
  align : Nat
  deriving DecidableEq, Repr

/-- The next multiple of `a` from `n` on. -/
def roundUp (n a : Nat) : Nat := (n + a - 1) / a * a

/-- The end of the members laid out one after the other from `end_` on. -/
def place (end_ : Nat) : List DataMember → Nat
  | [] => end_
  | m :: ms => place (roundUp end_ m.align + m.size) ms

/-- The strictest alignment. -/
def maxAlign (a : Nat) : List DataMember → Nat
  | [] => a
  | m :: ms => maxAlign (max a m.align) ms

/-- `sizeof(Type)` for a class that derives from `Base`, which holds one `usec_` (time.hpp:59, 239), and
adds the given members. -/
def sizeofDerived (usec : Ty) (ms : List DataMember) : Nat :=
  roundUp (place usec.size ms) (maxAlign usec.align ms)

/-! ## The assertions -/

/-- The `static_assert`s of the library that concern template arguments of users. -/
inductive AssertId where
  /-- time.hpp:70–71 -/
  | durSize
  /-- time.hpp:72 -/
  | durSigned
  /-- time.hpp:247–248 -/
  | timeSize
  /-- time.hpp:249 -/
  | timeUnsigned
  /-- time.hpp:254–255 -/
  | timeDur
  /-- can.hpp:147–148 -/
  | frameMtu
  /-- interfaces.hpp:63 -/
  | groupTx
  /-- interfaces.hpp:64 -/
  | groupRx
  /-- memory.hpp:96 -/
  | poolBlocks
  /-- memory.hpp:227–229 -/
  | poolFit
  deriving DecidableEq, Repr

/-- A version of the library: which of the assertions it contains. -/
abbrev Library := AssertId → Bool

/-- The library as it is. -/
def theLibrary : Library := fun _ => true

/-- The library without one assertion. -/
def Library.without (lib : Library) (a : AssertId) : Library := fun b => lib b && b != a

/-- A `static_assert` that may have been deleted. -/
def assertion (lib : Library) (a : AssertId) (condition : Bool) : Bool := !lib a || condition

/-! ## Durations -/

/-- `class D : public duration::Base<D, USecT>` with the members it adds (time.hpp:56–57). -/
structure DurationClass where
  usec : Ty
  members : List DataMember
  deriving DecidableEq, Repr

/-- `sizeof(Type)`. -/
def DurationClass.size (d : DurationClass) : Nat := sizeofDerived d.usec d.members

/-- The default constructor, time.hpp:67–73. -/
def durDefault (lib : Library) (d : DurationClass) : Bool :=
  zeroOk d.usec && assertion lib .durSize (d.size == d.usec.size)
    && assertion lib .durSigned (isSigned d.usec)

/-- The copy constructor, time.hpp:75–77, and `operator=(const Base&)`, 141–145. -/
def durCopy : Bool := true

/-- The move constructor, time.hpp:83–87, and `operator=(Base&&)`, 134–139. -/
def durMove (d : DurationClass) : Bool := zeroOk d.usec

/-- `fromMicrosecond`, time.hpp:111–116: declares a `Type d;`. -/
def durFrom (lib : Library) (d : DurationClass) : Bool := durDefault lib d

/-- `getMaximum`, time.hpp:103–106. -/
def durMaximum (lib : Library) (d : DurationClass) : Bool := durFrom lib d

/-- `std::abs` has one best overload: signed integers, floating point, and the narrow unsigned types
that promote to `int`. -/
def absOk (intSize : Nat) (t : Ty) : Bool :=
  match t.kind with
  | .signedInt => true
  | .floating => true
  | .unsignedInt => t.size < intSize
  | .boolean => true
  | _ => false

/-- `getAbs`, time.hpp:129–132. -/
def durAbs (lib : Library) (intSize : Nat) (d : DurationClass) : Bool :=
  absOk intSize d.usec && durFrom lib d

/-- `operator+` and `operator-`, time.hpp:177–185. -/
def durPlus (lib : Library) (d : DurationClass) : Bool := saturatingOk d.usec d.usec && durFrom lib d

/-- Unary minus applies to arithmetic types. -/
def negOk (t : Ty) : Bool :=
  match t.kind with
  | .pointer => false
  | .enumeration => false
  | .cls _ => false
  | _ => true

/-- Unary `operator-`, time.hpp:187–197. -/
def durNeg (lib : Library) (d : DurationClass) : Bool := negOk d.usec && durFrom lib d

/-- `operator+=` and `operator-=`, time.hpp:199–209: add, then move-assign the result. -/
def durPlusAssign (lib : Library) (d : DurationClass) : Bool := durPlus lib d && durMove d

/-- Statements of a program that uses a duration class; numbers name variables. -/
inductive DurStmt where
  /-- `D v;` -/
  | declare (v : Nat)
  /-- `D v = D::fromMicrosecond(…);` -/
  | fromMicrosecond (v : Nat)
  /-- `D v = D::getMaximum();` -/
  | getMaximum (v : Nat)
  /-- `D v(w);` -/
  | copy (v w : Nat)
  /-- `D v(std::move(w));` -/
  | move (v w : Nat)
  /-- `w = x;` -/
  | assign (w x : Nat)
  /-- `w = std::move(x);` -/
  | moveAssign (w x : Nat)
  /-- `w.toMicrosecond()` and the comparisons of `w` with `x`, time.hpp:121–124, 147–175 -/
  | read (w x : Nat)
  /-- `D v = w.getAbs();` -/
  | abs (v w : Nat)
  /-- `D v = w + x;` or `D v = w - x;` -/
  | plus (v w x : Nat)
  /-- `D v = -w;` -/
  | neg (v w : Nat)
  /-- `w += x;` or `w -= x;` -/
  | plusAssign (w x : Nat)
  deriving DecidableEq, Repr

/-- The variable a statement declares. -/
def DurStmt.defines : DurStmt → Option Nat
  | .declare v => some v
  | .fromMicrosecond v => some v
  | .getMaximum v => some v
  | .copy v _ => some v
  | .move v _ => some v
  | .assign _ _ => none
  | .moveAssign _ _ => none
  | .read _ _ => none
  | .abs v _ => some v
  | .plus v _ _ => some v
  | .neg v _ => some v
  | .plusAssign _ _ => none

/-- The variables a statement uses. -/
def DurStmt.uses : DurStmt → List Nat
  | .declare _ => []
  | .fromMicrosecond _ => []
  | .getMaximum _ => []
  | .copy _ w => [w]
  | .move _ w => [w]
  | .assign w x => [w, x]
  | .moveAssign w x => [w, x]
  | .read w x => [w, x]
  | .abs _ w => [w]
  | .plus _ w x => [w, x]
  | .neg _ w => [w]
  | .plusAssign w x => [w, x]

/-- What the compiler checks because of one statement. Initialising a variable from a function result
moves the result (time.hpp:83–87). -/
def DurStmt.checks (lib : Library) (intSize : Nat) (d : DurationClass) : DurStmt → Bool
  | .declare _ => durDefault lib d
  | .fromMicrosecond _ => durFrom lib d && durMove d
  | .getMaximum _ => durMaximum lib d && durMove d
  | .copy _ _ => durCopy
  | .move _ _ => durMove d
  | .assign _ _ => durCopy
  | .moveAssign _ _ => durMove d
  | .read _ _ => true
  | .abs _ _ => durAbs lib intSize d && durMove d
  | .plus _ _ _ => durPlus lib d && durMove d
  | .neg _ _ => durNeg lib d && durMove d
  | .plusAssign _ _ => durPlusAssign lib d

/-- Names are declared before they are used, in a program whose statements declare and use the given
names. A declaration that initialises a variable from itself reads an indeterminate value and is not
counted as a use of a declared name. -/
def inScope (declared : List Nat) : List (Option Nat × List Nat) → Bool
  | [] => true
  | (d, us) :: rest => us.all (declared.contains ·) && inScope (d.toList ++ declared) rest

/-- A program that uses a duration class compiles. -/
def durCompiles (lib : Library) (intSize : Nat) (d : DurationClass) (p : List DurStmt) : Bool :=
  inScope [] (p.map fun s => (s.defines, s.uses)) && p.all (·.checks lib intSize d)

/-! ## Times -/

/-- What `time::Base` asks of its second argument: the member `MicrosecondType` (time.hpp:254) and the
type `toMicrosecond()` returns (354, 359), if there are such members. -/
structure DType where
  microsecondType : Option Ty
  toMicrosecond : Option Ty
  deriving DecidableEq, Repr

/-- A class derived from `duration::Base` or `time::Base` as second argument: `MicrosecondType` and the
result of `toMicrosecond()` are its `USecT` (time.hpp:93, 121–124, 276, 304–307). -/
def DType.ofUsec (usec : Ty) : DType := ⟨some usec, some usec⟩

/-- `class T : public time::Base<T, DType, USecT>` with the members it adds (time.hpp:236–237). -/
structure TimeClass where
  usec : Ty
  dtype : DType
  members : List DataMember
  deriving DecidableEq, Repr

/-- `sizeof(Type)`. -/
def TimeClass.size (t : TimeClass) : Nat := sizeofDerived t.usec t.members

/-- The third assertion of the constructor: ill formed without a `DType::MicrosecondType`,
time.hpp:254. -/
def sameSizeAsDuration (t : TimeClass) : Bool :=
  match t.dtype.microsecondType with
  | some m => t.usec.size == m.size
  | none => false

/-- The default constructor, time.hpp:244–256. -/
def timeDefault (lib : Library) (t : TimeClass) : Bool :=
  zeroOk t.usec && assertion lib .timeSize (t.size == t.usec.size)
    && assertion lib .timeUnsigned (!isSigned t.usec)
    && assertion lib .timeDur (sameSizeAsDuration t)

/-- The copy constructor, time.hpp:258–260, and `operator=(const Base&)`, 316–320. -/
def timeCopy : Bool := true

/-- The move constructor, time.hpp:266–270, and `operator=(Base&&)`, 309–314. -/
def timeMove (t : TimeClass) : Bool := zeroOk t.usec

/-- `fromMicrosecond`, time.hpp:294–299. -/
def timeFrom (lib : Library) (t : TimeClass) : Bool := timeDefault lib t

/-- `getMaximum`, time.hpp:286–289. -/
def timeMaximum (lib : Library) (t : TimeClass) : Bool := timeFrom lib t

/-- `saturating_add(usec_, r.toMicrosecond())`, time.hpp:354 and 359. -/
def durationOperandOk (t : TimeClass) : Bool :=
  match t.dtype.toMicrosecond with
  | some m => saturatingOk t.usec m
  | none => false

/-- `operator+` and `operator-`, time.hpp:352–360. -/
def timePlus (lib : Library) (t : TimeClass) : Bool := durationOperandOk t && timeFrom lib t

/-- `operator+=` and `operator-=`, time.hpp:362–372. -/
def timePlusAssign (lib : Library) (t : TimeClass) : Bool := timePlus lib t && timeMove t

/-- Statements of a program that uses a time class; the durations it adds come from elsewhere. -/
inductive TimeStmt where
  /-- `T v;` -/
  | declare (v : Nat)
  /-- `T v = T::fromMicrosecond(…);` -/
  | fromMicrosecond (v : Nat)
  /-- `T v = T::getMaximum();` -/
  | getMaximum (v : Nat)
  /-- `T v(w);` -/
  | copy (v w : Nat)
  /-- `T v(std::move(w));` -/
  | move (v w : Nat)
  /-- `w = x;` -/
  | assign (w x : Nat)
  /-- `w = std::move(x);` -/
  | moveAssign (w x : Nat)
  /-- `w.toMicrosecond()` and the comparisons of `w` with `x`, time.hpp:304–307, 322–350 -/
  | read (w x : Nat)
  /-- `T v = w + d;` or `T v = w - d;` -/
  | plus (v w : Nat)
  /-- `w += d;` or `w -= d;` -/
  | plusAssign (w : Nat)
  deriving DecidableEq, Repr

/-- The variable a statement declares. -/
def TimeStmt.defines : TimeStmt → Option Nat
  | .declare v => some v
  | .fromMicrosecond v => some v
  | .getMaximum v => some v
  | .copy v _ => some v
  | .move v _ => some v
  | .assign _ _ => none
  | .moveAssign _ _ => none
  | .read _ _ => none
  | .plus v _ => some v
  | .plusAssign _ => none

/-- The variables a statement uses. -/
def TimeStmt.uses : TimeStmt → List Nat
  | .declare _ => []
  | .fromMicrosecond _ => []
  | .getMaximum _ => []
  | .copy _ w => [w]
  | .move _ w => [w]
  | .assign w x => [w, x]
  | .moveAssign w x => [w, x]
  | .read w x => [w, x]
  | .plus _ w => [w]
  | .plusAssign w => [w]

/-- What the compiler checks because of one statement. -/
def TimeStmt.checks (lib : Library) (t : TimeClass) : TimeStmt → Bool
  | .declare _ => timeDefault lib t
  | .fromMicrosecond _ => timeFrom lib t && timeMove t
  | .getMaximum _ => timeMaximum lib t && timeMove t
  | .copy _ _ => timeCopy
  | .move _ _ => timeMove t
  | .assign _ _ => timeCopy
  | .moveAssign _ _ => timeMove t
  | .read _ _ => true
  | .plus _ _ => timePlus lib t && timeMove t
  | .plusAssign _ => timePlusAssign lib t

/-- A program that uses a time class compiles. -/
def timeCompiles (lib : Library) (t : TimeClass) (p : List TimeStmt) : Bool :=
  inScope [] (p.map fun s => (s.defines, s.uses)) && p.all (·.checks lib t)

/-! ## Frames, interface groups and allocators -/

/-- What compilers are known to differ in. -/
structure Compiler where
  /-- arrays of no elements are accepted, as GNU C++ does without `-pedantic-errors` or
  `-pedantic -Werror` (native_common.cmake sets the latter) -/
  zeroArrays : Bool
  /-- a private member that is never used is an error, as with Clang's `-Wunused-private-field` and
  `-Werror` -/
  unusedMemberError : Bool
  deriving DecidableEq, Repr

/-- An array type of `n` elements is accepted. -/
def arrayOk (cc : Compiler) (n : Nat) : Bool := n != 0 || cc.zeroArrays

/-- `CAN::Frame<mtu>` is instantiated: can.hpp:147 and the member `data[MTUBytesParam]`, 253. -/
def frameOk (lib : Library) (cc : Compiler) (mtu : Nat) : Bool :=
  assertion lib .frameMtu (decide (mtu ≤ 64)) && arrayOk cc mtu

/-- `InterfaceGroup<CAN::Frame<mtu>, tx, rx>` is instantiated: interfaces.hpp:63–64 and the parameters
`const FrameT (&frames)[MaxTxFrames]` (120) and `FrameT (&out_frames)[MaxRxFrames]` (139). -/
def groupOk (lib : Library) (cc : Compiler) (mtu tx rx : Nat) : Bool :=
  frameOk lib cc mtu && assertion lib .groupTx (decide (0 < tx)) && assertion lib .groupRx (decide (0 < rx))
    && arrayOk cc tx && arrayOk cc rx

/-- The constructor of `StaticMemoryPool<NumBlocks, BlockSize>` is instantiated, memory.hpp:91–108. The
storage is an array of `NumBlocks` blocks (81), and a block holds an array of `BlockSize` bytes (59). -/
def poolOk (lib : Library) (cc : Compiler) (numBlocks blockSize : Nat) : Bool :=
  assertion lib .poolBlocks (decide (0 < numBlocks)) && arrayOk cc numBlocks && arrayOk cc blockSize

/-- The class `PoolAllocator<NumBlocks, BlockSize, T>` is instantiated: memory.hpp:227–229, where `void`
counts as one byte. -/
def allocatorOk (lib : Library) (blockSize : Nat) (valueSize : Option Nat) : Bool :=
  assertion lib .poolFit (decide (valueSize.getD 1 ≤ blockSize))

/-- An object `PoolAllocator<NumBlocks, BlockSize, T> a;` is declared: the class is instantiated, and
the constructor calls `getReference()`, which declares the pool (memory.hpp:208–210, 133–137). -/
def allocatorObjectOk (lib : Library) (cc : Compiler) (numBlocks blockSize : Nat)
    (valueSize : Option Nat) : Bool :=
  allocatorOk lib blockSize valueSize && poolOk lib cc numBlocks blockSize

/-! ## The compile tests -/

/-- `std::int64_t`. -/
def int64 : Ty := ⟨.signedInt, 8, 8, 0⟩
/-- `std::uint64_t`. -/
def uint64 : Ty := ⟨.unsignedInt, 8, 8, 0⟩
/-- `std::uint32_t`. -/
def uint32 : Ty := ⟨.unsignedInt, 4, 4, 0⟩
/-- `uint8_t more_`, test_time_001.cpp:11 and test_time_003.cpp:11. -/
def oneByte : DataMember := ⟨1, 1⟩

/-- `duration::Monotonic`, time.hpp:215, with the default type of line 30. -/
def durationMonotonic : DurationClass := ⟨int64, []⟩
/-- `time::Monotonic`, time.hpp:378, with the default type of line 35. -/
def timeMonotonic : TimeClass := ⟨uint64, .ofUsec int64, []⟩

/-- A private member nobody uses is reported, test_time_001.cpp:11 and test_time_003.cpp:11. -/
def unusedMemberOk (cc : Compiler) (ms : List DataMember) : Bool := ms.isEmpty || !cc.unusedMemberError

/-- Whether the source file of one compile test compiles; test/compile/test_*.cpp, in the order of their
names. The tests of the interfaces declare a class that implements every pure virtual function. -/
def testCompiles (lib : Library) (cc : Compiler) : List Bool :=
  [ -- test_media_can_001.cpp:9
    frameOk lib cc 65,
    -- test_media_interfaces_001.cpp:8–9, 57
    groupOk lib cc 64 4 0,
    -- test_media_interfaces_002.cpp:8–9, 57
    groupOk lib cc 64 0 4,
    -- test_time_001.cpp:9–12, 17
    durCompiles lib 4 ⟨int64, [oneByte]⟩ [.declare 0] && unusedMemberOk cc [oneByte],
    -- test_time_002.cpp:9–11, 16
    durCompiles lib 4 ⟨uint32, []⟩ [.declare 0],
    -- test_time_003.cpp:9–12, 17
    timeCompiles lib ⟨uint64, .ofUsec int64, [oneByte]⟩ [.declare 0] && unusedMemberOk cc [oneByte],
    -- test_time_004.cpp:9–11, 16
    timeCompiles lib ⟨int64, .ofUsec int64, []⟩ [.declare 0],
    -- test_time_005.cpp:9–15, 20
    timeCompiles lib ⟨uint32, .ofUsec int64, []⟩ [.declare 0],
    -- test_time_006.cpp:9–11, 16: `int64_t` has no members
    timeCompiles lib ⟨uint64, ⟨none, none⟩, []⟩ [.declare 0] ]

/-- `ctest` runs every test with `WILL_FAIL`: a test passes when its source does not compile,
compile_tests.cmake:27–42, 52–55. -/
def compileTestsPass (lib : Library) (cc : Compiler) : Bool := (testCompiles lib cc).all (!·)

/-- The tool for which CMake has written the build files. -/
structure BuildTool where
  /-- it has an option `--always-make`, as GNU make has; Ninja ends with a message about its usage -/
  alwaysMake : Bool
  deriving DecidableEq, Repr

/-- The command of one test, `cmake --build … --target … -- --always-make` (compile_tests.cmake:27–36),
succeeds: the tool takes the option and the source compiles. (The sources are complete programs, which
link.) -/
def buildSucceeds (tool : BuildTool) (compiles : Bool) : Bool := tool.alwaysMake && compiles

/-- `ctest` with the commands as they are: `WILL_FAIL` (compile_tests.cmake:38–42) asks only that the
command fails, not why. -/
def ctestPass (tool : BuildTool) (lib : Library) (cc : Compiler) : Bool :=
  (testCompiles lib cc).all (!buildSucceeds tool ·)

end Uavcan.CompileTime
