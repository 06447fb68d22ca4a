import Verif.Model.Result

/-!
# The unit tests of `Result`

`test/native/test_result.cpp`, in this file "test_result.cpp". They are written down for any implementation of the three functions in `libuavcan/include/libuavcan/libuavcan.hpp`, 107–132
("libuavcan.hpp"), to say which ones pass.
-/

namespace Uavcan.ResultTest

/-- An implementation of the functions, libuavcan.hpp 107–132. -/
structure Impl where
  /-- `operator!` -/
  bang : Result → Bool
  /-- `isSuccess` -/
  isSuccess : Result → Bool
  /-- `isFailure` -/
  isFailure : Result → Bool

/-- The library's, libuavcan.hpp 107–132. -/
def library : Impl := ⟨Result.not, Result.isSuccess, Result.isFailure⟩

/-- `ResultBangOperator`, test_result.cpp 13–19. The second `!` of `!!` is the one of `bool`. -/
def bangOperator (c : Impl) : List Bool :=
  [!(c.bang .Success),      -- 15
   !(c.bang .Success),      -- 16
   c.bang .Failure,         -- 17
   !(!(c.bang .Failure))]   -- 18

/-- `ResultSuccessHelper`, test_result.cpp 21–27. -/
def successHelper (c : Impl) : List Bool :=
  [c.isSuccess .Success,          -- 23
   !(c.isSuccess .Failure),       -- 24
   c.isSuccess .SuccessTimeout,   -- 25
   !(c.isSuccess .BadArgument)]   -- 26

/-- `ResultFailureHelper`, test_result.cpp 29–35. -/
def failureHelper (c : Impl) : List Bool :=
  [c.isFailure .Failure,             -- 31
   !(c.isFailure .Success),          -- 32
   c.isFailure .BadArgument,         -- 33
   !(c.isFailure .SuccessNothing)]   -- 34

/-- All assertions hold, test_result.cpp 13–35. -/
def passes (c : Impl) : Bool := (bangOperator c ++ successHelper c ++ failureHelper c).all id

end Uavcan.ResultTest
