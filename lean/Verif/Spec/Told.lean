import Verif.Spec.Refusals
/-! # What a UDP socket was told about addresses

`embedded-nal` says of `UdpClientStack::send`: the remote host used is either the one specified in `connect` or the last one
used in `send_to`. -/

namespace W5500.Spec
open W5500

/-- Sn_PORT as it is in the chip. -/
def Sock.srcPort (s : Sock) : List U8 := [s.mem 0x04, s.mem 0x05]

/-- The address a call names, if it is one the chip can be told. -/
def named (old : Option SockAddr4) : SockAddr → Option SockAddr4
  | .v4 a => some a
  | .v6 _ _ => old

/-- The socket is open after a call that returned `r`. -/
def opens {ε : Type} (before : Bool) : Res ε Unit → Bool
  | .ok _ => true
  | _ => before

/-- `UdpTold sched faults n last port up u c`: a UDP socket object was handed out for socket `n` and used in any way, no call
having returned a bus error; `last` is the IPv4 address last named in `connect` or `send_to`, `port` the port last named in
`bind` or `set_port` (before: 49849 plus the number of the socket), `up` tells whether `bind` or `connect` returned `Ok` so
far. The object is now `u`, and the chip `c`. -/
inductive UdpTold {E : Type} (sched : Nat → List (Nat × Act)) (faults : Nat → Option (E × Nat)) (n : Nat) :
    Option SockAddr4 → U16 → Bool → UdpSocket → Chip → Prop where
  | new (c : Chip) : Sock.SizesOk (c.socks n).mem →
      UdpTold sched faults n none (BitVec.ofNat 16 (49849 + n)) false (UdpSocket.new (Socket.new (BitVec.ofNat 8 n))) c
  | connect {H : Type} {last : Option SockAddr4} {port : U16} {up : Bool} {u u' : UdpSocket} {d d' : Device Chip H}
      (remote : SockAddr) (r : Res (UdpSocketError E) Unit) : UdpTold sched faults n last port up u d.bus →
      Device.udpConnect (Chip.dev sched faults).bus remote (u, d) = (r, (u', d')) → UdpSound r →
      UdpTold sched faults n (named last remote) port (opens up r) u' d'.bus
  | bind {H : Type} {last : Option SockAddr4} {port : U16} {up : Bool} {u u' : UdpSocket} {d d' : Device Chip H}
      (port' : U16) (r : Res (UdpSocketError E) Unit) : UdpTold sched faults n last port up u d.bus →
      Device.udpBind (Chip.dev sched faults).bus port' (u, d) = (r, (u', d')) → UdpSound r →
      UdpTold sched faults n last port' (opens up r) u' d'.bus
  | setPort {H : Type} {last : Option SockAddr4} {port : U16} {up : Bool} {u u' : UdpSocket} {d d' : Device Chip H}
      (port' : U16) (r : Res (UdpSocketError E) Unit) : UdpTold sched faults n last port up u d.bus →
      Device.onSockBus (UdpSocket.setPort (Chip.dev sched faults).bus port') (u, d) = (r, (u', d')) → UdpSound r →
      UdpTold sched faults n last port' up u' d'.bus
  | send {H : Type} {last : Option SockAddr4} {port : U16} {up : Bool} {u : UdpSocket} {d d' : Device Chip H} (fuel : Nat)
      (data : List U8) (r : Res (NbError (UdpSocketError E)) Unit) : UdpTold sched faults n last port up u d.bus →
      Device.udpSend (Chip.dev sched faults).bus fuel u data d = (r, d') → NbSound r →
      UdpTold sched faults n last port up u d'.bus
  | sendTo {H : Type} {last : Option SockAddr4} {port : U16} {up : Bool} {u u' : UdpSocket} {d d' : Device Chip H} (fuel : Nat)
      (remote : SockAddr) (data : List U8) (r : Res (NbError (UdpSocketError E)) Unit) :
      UdpTold sched faults n last port up u d.bus →
      Device.udpSendTo (Chip.dev sched faults).bus fuel remote data (u, d) = (r, (u', d')) → NbSound r →
      UdpTold sched faults n (named last remote) port up u' d'.bus
  | receive {H : Type} {last : Option SockAddr4} {port : U16} {up : Bool} {u : UdpSocket} {d d' : Device Chip H} (fuel : Nat)
      (buf buf' : List U8) (r : Res (NbError (UdpSocketError E)) (Nat × SockAddr)) :
      UdpTold sched faults n last port up u d.bus →
      Device.udpReceive (Chip.dev sched faults).bus fuel u (buf, d) = (r, (buf', d')) → NbSound r →
      UdpTold sched faults n last port up u d'.bus
  | read {last : Option SockAddr4} {port : U16} {up : Bool} {u : UdpSocket} {c : Chip} (block : U8) (addr : U16)
      (data : List U8) : UdpTold sched faults n last port up u c →
      UdpTold sched faults n last port up u ((Chip.dev sched faults).bus.readFrame c block addr data).2.2
  | write {last : Option SockAddr4} {port : U16} {up : Bool} {u : UdpSocket} {c : Chip} (block : U8) (addr : U16)
      (data : List U8) : UdpTold sched faults n last port up u c → Foreign n block addr data →
      UdpTold sched faults n last port up u ((Chip.dev sched faults).bus.writeFrame c block addr data).2
  | pass {last : Option SockAddr4} {port : U16} {up : Bool} {u : UdpSocket} {c c' : Chip} :
      UdpTold sched faults n last port up u c → Passes c c' → UdpTold sched faults n last port up u c'

/-- Between `c` and `c'` socket `n` sent nothing but packets to `w` from port `q`. -/
def SentAs (n : Nat) (w : List U8 × List U8) (q : List U8) (c c' : Chip) : Prop :=
  ∃ ps, (c'.socks n).packets = (c.socks n).packets ++ ps ∧ (∀ p ∈ ps, (p.ip, p.port) = w) ∧
    (c'.socks n).sources = (c.socks n).sources ++ List.replicate ps.length q

end W5500.Spec
