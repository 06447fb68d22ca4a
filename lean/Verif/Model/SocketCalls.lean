import Verif.Model.SocketManager

/-!
# Model of the SocketCAN example: the arguments of the system calls

`Model/SocketCan.lean` takes the answers of `sendmmsg` and `recvmmsg` as given. Here is what the code asks for: the sizes of
the messages and the flags, and the type of the socket. The only other calls on a socket are those of `SockCall`
(`Model/SocketManager.lean`); none of them changes whether the socket blocks.
-/

namespace Uavcan.SocketCan
open Can

/-- `sizeof(trx_socketcan_frames_[0])`, the `iov_len` of every message (SocketCANInterface.cpp:53–56): the size of a
`canfd_frame`, `CANFD_MTU` of `<linux/can.h>`. -/
def CanfdFrameSize : Nat := 72

/-- `MSG_DONTWAIT` of Linux, used at SocketCANInterface.cpp:151. -/
def MSG_DONTWAIT : BitVec 32 := 0x40#32

/-- `SOCK_RAW` of Linux, used at SocketCANInterfaceManager.cpp:58. -/
def SOCK_RAW : BitVec 32 := 3#32

/-- The type given to `socket`, SocketCANInterfaceManager.cpp:58. -/
def socketType : BitVec 32 := SOCK_RAW

/-- `PF_CAN` of Linux, used at SocketCANInterfaceManager.cpp:58. -/
def PF_CAN : BitVec 32 := 29#32

/-- `CAN_RAW` of `<linux/can.h>`, used at SocketCANInterfaceManager.cpp:58. -/
def CAN_RAW : BitVec 32 := 1#32

/-- The three arguments of `socket`, SocketCANInterfaceManager.cpp:58. -/
def socketArgs : BitVec 32 × BitVec 32 × BitVec 32 := (PF_CAN, socketType, CAN_RAW)

/-- Arguments of `sendmmsg`, SocketCANInterface.cpp:120: size and contents of each message, and the flags. -/
structure SendCall where
  msgs : List (Nat × CanfdFrame)
  flags : BitVec 32

/-- Arguments of `recvmmsg`, SocketCANInterface.cpp:151: number of messages and flags. -/
structure RecvCall where
  vlen : Nat
  flags : BitVec 32

/-- The call `write` makes, SocketCANInterface.cpp:103–120; none without frames. -/
def Iface.sendCall (s : Iface) (frames : Vector FrameT FramesLen) (frames_len : Nat) : Outcome (Option SendCall) :=
  if frames_len = 0 then .ok none                                                 -- 103–106
  else do
    let bufs ← writeLoop frames frames_len 0 s.bufs                               -- 108–118
    return some { msgs := (bufs.toList.take frames_len).map fun f => (CanfdFrameSize, f), flags := 0#32 } -- 120

/-- The call `read` makes, SocketCANInterface.cpp:151. -/
def recvCall : RecvCall := { vlen := FramesLen, flags := MSG_DONTWAIT }

end Uavcan.SocketCan
