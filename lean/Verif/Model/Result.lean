/-!
# Model of `libuavcan::Result`

`libuavcan/include/libuavcan/libuavcan.hpp`, lines 33–132.
-/

namespace Uavcan

/-- `enum struct Result`, libuavcan.hpp:33–96. -/
inductive Result where
  | Success
  | SuccessPartial
  | SuccessNothing
  | SuccessTimeout
  | BufferFull
  | Failure
  | BadArgument
  | UnknownInternalError
  | OutOfMemory
  | NotFound
  | NotImplemented
  deriving DecidableEq, Repr

/-- The enumerators' values, libuavcan.hpp:39–94. -/
def Result.code : Result → Int
  | .Success => 1                   -- 39
  | .SuccessPartial => 2            -- 46
  | .SuccessNothing => 3            -- 52
  | .SuccessTimeout => 4            -- 57
  | .BufferFull => 0                -- 63
  | .Failure => -1                  -- 68
  | .BadArgument => -2              -- 73
  | .UnknownInternalError => -3     -- 79
  | .OutOfMemory => -4              -- 84
  | .NotFound => -5                 -- 89
  | .NotImplemented => -6           -- 94

/-- `operator!`, libuavcan.hpp:107–110. -/
def Result.not (r : Result) : Bool := r.code ≤ 0

/-- `isSuccess`, libuavcan.hpp:118–121: `!!result`, the second `!` being the one of `bool`. -/
def Result.isSuccess (r : Result) : Bool := !(r.not)

/-- `isFailure`, libuavcan.hpp:129–132. -/
def Result.isFailure (r : Result) : Bool := r.not

end Uavcan
