import Verif.Spec.Success
import Verif.Model.Tcp
/-! # Going on with a chip that lost its state

A drop of the supply voltage or a pulse on the reset pin brings the chip back to its reset state. The program does not know
and goes on using the sockets it has. -/

namespace W5500.Spec
open W5500
variable {W E H : Type}

/-- A call on a socket that the program believes to be open; `dest`, `port` are what the UDP socket object remembers. -/
inductive Use where
  | tcpSend (data : List U8)
  | tcpReceive (buf : List U8)
  | udpSend (dest : Option SockAddr4) (port : U16) (data : List U8)
  | udpSendTo (dest : Option SockAddr4) (port : U16) (remote : SockAddr4) (data : List U8)
  | udpReceive (dest : Option SockAddr4) (port : U16) (buf : List U8)

/-- What the call tells the program: that the socket is not open, that a transfer failed, or anything else. -/
inductive Answer (E : Type) where
  | notOpen
  | bus (e : E)
  | else

def Answer.tcp {α : Type} : Res (TcpSocketError E) α → Answer E
  | .err .notConnected => .notOpen
  | .err (.other e) => .bus e
  | _ => .else

def Answer.udp {α : Type} : Res (NbError (UdpSocketError E)) α → Answer E
  | .err (.other .socketNotOpen) => .notOpen
  | .err (.other (.other e)) => .bus e
  | _ => .else

/-- The call on socket `n`. -/
def Use.run (B : Bus W E) (fuel n : Nat) (d : Device W H) : Use → Answer E × Device W H
  | .tcpSend data =>
    let r := Device.tcpSend B fuel ⟨Socket.new (BitVec.ofNat 8 n)⟩ data d
    (.tcp r.1, r.2)
  | .tcpReceive buf =>
    let r := Device.tcpReceive B fuel ⟨Socket.new (BitVec.ofNat 8 n)⟩ (buf, d)
    (.tcp r.1, r.2.2)
  | .udpSend dest port data =>
    let r := Device.udpSend B fuel ⟨Socket.new (BitVec.ofNat 8 n), dest, port⟩ data d
    (.udp r.1, r.2)
  | .udpSendTo dest port remote data =>
    let r := Device.udpSendTo B fuel (.v4 remote) data (⟨Socket.new (BitVec.ofNat 8 n), dest, port⟩, d)
    (.udp r.1, r.2.2)
  | .udpReceive dest port buf =>
    let r := Device.udpReceive B fuel ⟨Socket.new (BitVec.ofNat 8 n), dest, port⟩ (buf, d)
    (.udp r.1, r.2.2)

/-- One call after the other. -/
def uses (B : Bus W E) (fuel n : Nat) : List Use → Device W H → List (Answer E) × Device W H
  | [], d => ([], d)
  | u :: us, d =>
    let r := u.run B fuel n d
    let rs := uses B fuel n us r.2
    (r.1 :: rs.1, rs.2)

/-- The chip after a loss of power or a pulse on the reset pin. What was sent and received before is kept as history. -/
def Chip.powerCycle (c : Chip) : Chip := { c with cmem := Chip.commonReset, socks := fun n => (c.socks n).reset }

end W5500.Spec
