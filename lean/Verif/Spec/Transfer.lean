import Verif.Spec.Sender
import Verif.Spec.Links

/-!
# Specification: transfers of several frames

The transport of UAVCAN on CAN 2.0 ("UAVCAN v1 Specification", transport layer): the payload of a transfer is cut into pieces, each sent in one frame, followed by a tail byte that says whether the
frame is the first or the last one, has a bit that toggles, and the number of the transfer modulo 32. The frames of a transfer have the same identifier. The library has constants for this
(`TailByteSizeBytes`, can.hpp 27, `MaxFrameSizeBytes`, 63) and the constructor of frames; sender and receiver are the application's. The check sum at the end of longer transfers is
taken for part of the payload.
-/

namespace Uavcan.Spec
open SocketCan Can

/-- The tail byte. -/
def tailByte (first last toggle : Bool) (number : Nat) : Byte :=
  BitVec.ofNat 8 ((if first then 128 else 0) + (if last then 64 else 0) + (if toggle then 32 else 0) + number % 32)

/-- A transfer. -/
structure Transfer where
  payload : List Byte
  number : Nat

/-- The bytes of a transfer that fit into one frame. -/
def pieceLength : Nat := Type20MaxFrameSizeBytes - TailByteSizeBytes

/-- What the frames carry, for the rest of a transfer. -/
def cutRest (number : Nat) (payload : List Byte) (first toggle : Bool) : List (List Byte) :=
  if _h : payload.length ≤ pieceLength then [payload ++ [tailByte first true toggle number]]
  else (payload.take pieceLength ++ [tailByte first false toggle number]) :: cutRest number (payload.drop pieceLength) false (!toggle)
termination_by payload.length
decreasing_by
  simp only [List.length_drop, pieceLength, Type20MaxFrameSizeBytes, TailByteSizeBytes] at *
  omega

/-- What the frames of a transfer carry. -/
def Transfer.contents (t : Transfer) : List (List Byte) := cutRest t.number t.payload true true

/-- The frame is what the library's constructor makes of these bytes: `Frame(id, bytes, Frame::lengthToDlc(n))`. -/
def Made (id : BitVec 32) (bytes : List Byte) (f : FrameT) : Prop :=
  ∃ dlc, lengthToDlc 64 bytes.length = .ok dlc ∧ Frame.ofData' id (some bytes) dlc = .ok f

/-- The bytes of a frame that count. -/
def bytesOf (f : FrameT) : List Byte := f.data.toList.take f.getDataLength

/-- A transfer of which some frames have been received. -/
structure Assembly where
  payload : List Byte
  toggle : Bool
  number : Nat

/-- The receiver gets a frame: what it has then, and the payload if the transfer is complete. Frames that are not what comes next end the transfer. -/
def assemble (st : Option Assembly) (bytes : List Byte) : Option Assembly × Option (List Byte) :=
  match bytes.getLast? with
  | none => (st, none)
  | some t =>
    match (if t.getLsbD 7 then some ⟨[], true, t.toNat % 32⟩ else st : Option Assembly) with
    | none => (none, none)
    | some a =>
      if t.getLsbD 5 = a.toggle ∧ t.toNat % 32 = a.number then
        if t.getLsbD 6 then (none, some (a.payload ++ bytes.dropLast)) else (some ⟨a.payload ++ bytes.dropLast, !a.toggle, a.number⟩, none)
      else (none, none)

/-- The payloads that a receiver gets out of frames. -/
def collect : Option Assembly → List (List Byte) → List (List Byte)
  | _, [] => []
  | st, b :: bs => (assemble st b).2.toList ++ collect (assemble st b).1 bs

/-- The receiver's transfers from one identifier. -/
def transfersOf (i : BitVec 29) (got : List FrameT) : List (List Byte) := collect none ((ofId i got).map bytesOf)

/-- The frames of each identifier are those of its transfers, as far as they are there; identifier 0 is not used (C39). -/
def SentSoFar (ts : BitVec 29 → List Transfer) (fs : List FrameT) : Prop :=
  ts 0 = [] ∧ ∀ i, Paired (Made (i.setWidth 32)) (((ts i).flatMap Transfer.contents).take (ofId i fs).length) (ofId i fs)

/-- All of them. -/
def SentAll (ts : BitVec 29 → List Transfer) (fs : List FrameT) : Prop :=
  ts 0 = [] ∧ ∀ i, Paired (Made (i.setWidth 32)) ((ts i).flatMap Transfer.contents) (ofId i fs)

end Uavcan.Spec
