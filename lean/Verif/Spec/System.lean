import Verif.Spec.Client
import Verif.Spec.UdpHistory
/-! # One socket within a client program

A client uses any number of sockets of a device; `TcpClient` and `UdpClient` are histories of such a client, seen from one
of its sockets: calls on that socket are recorded, all the others are not. -/

namespace W5500.Spec
open W5500

/-- An operation of a client that does not concern socket `n`: it works on a handle for another socket, or on the device
without resetting the chip. While the device is deactivated, time passes (the bus is not used for this chip). -/
def Aside {H : Type} (n : Nat) (c : Client Chip H) : Op Chip → Prop
  | .common .resetDevice => False
  | .reactivate g => Passes c.dev.bus (g c.dev.bus)
  | o => ∀ i h, o.target = some i → c.live[i]? = some h → h.index ≠ n

/-- `TcpClient sched faults n c0 acc del c`: from `c0` the client gets to `c` by any calls; on its TCP socket `n`, `send`
accepted the bytes `acc` and `receive` delivered the bytes `del`. Calls on socket `n` that fail do not move its
pointers. -/
inductive TcpClient {E H : Type} (sched : Nat → List (Nat × Act)) (faults : Nat → Option (E × Nat)) (n : Nat)
    (c0 : Client Chip H) : List U8 → List U8 → Client Chip H → Prop where
  | start : TcpClient sched faults n c0 [] [] c0
  | elsewhere {acc del : List U8} {c : Client Chip H} (fuel : Nat) (o : Op Chip) : TcpClient sched faults n c0 acc del c →
      Aside n c o → TcpClient sched faults n c0 acc del (c.step (Chip.dev sched faults).bus fuel o)
  | send {acc del : List U8} {c : Client Chip H} (fuel i : Nat) (t : TcpSocket) (data : List U8) (k : Nat) :
      TcpClient sched faults n c0 acc del c → c.live[i]? = some (.tcp t) → t.socket.index.toNat = n →
      (Device.tcpSend (Chip.dev sched faults).bus fuel t data c.dev).1 = .ok k →
      TcpClient sched faults n c0 (acc ++ data.take k) del (c.step (Chip.dev sched faults).bus fuel (.tcpSend i data))
  | receive {acc del : List U8} {c : Client Chip H} (fuel i : Nat) (t : TcpSocket) (buf buf' : List U8) (k : Nat) :
      TcpClient sched faults n c0 acc del c → c.live[i]? = some (.tcp t) → t.socket.index.toNat = n →
      (Device.tcpReceive (Chip.dev sched faults).bus fuel t (buf, c.dev)).1 = .ok k →
      (Device.tcpReceive (Chip.dev sched faults).bus fuel t (buf, c.dev)).2.1 = buf' →
      TcpClient sched faults n c0 acc (del ++ buf'.take k) (c.step (Chip.dev sched faults).bus fuel (.tcpReceive i buf))
  | failedSend {acc del : List U8} {c : Client Chip H} (fuel i : Nat) (t : TcpSocket) (data : List U8) :
      TcpClient sched faults n c0 acc del c → c.live[i]? = some (.tcp t) → t.socket.index.toNat = n →
      (∀ k, (Device.tcpSend (Chip.dev sched faults).bus fuel t data c.dev).1 ≠ .ok k) →
      ((c.step (Chip.dev sched faults).bus fuel (.tcpSend i data)).dev.bus.socks n).txWr = (c.dev.bus.socks n).txWr →
      TcpClient sched faults n c0 acc del (c.step (Chip.dev sched faults).bus fuel (.tcpSend i data))
  | failedReceive {acc del : List U8} {c : Client Chip H} (fuel i : Nat) (t : TcpSocket) (buf : List U8) :
      TcpClient sched faults n c0 acc del c → c.live[i]? = some (.tcp t) → t.socket.index.toNat = n →
      (∀ k, (Device.tcpReceive (Chip.dev sched faults).bus fuel t (buf, c.dev)).1 ≠ .ok k) →
      ((c.step (Chip.dev sched faults).bus fuel (.tcpReceive i buf)).dev.bus.socks n).rxRdReg = (c.dev.bus.socks n).rxRdReg →
      TcpClient sched faults n c0 acc del (c.step (Chip.dev sched faults).bus fuel (.tcpReceive i buf))

/-- Histories of a client without restriction, except that while the device is deactivated, time passes (the bus is not
used for this chip). -/
inductive ClientRun {E H : Type} (sched : Nat → List (Nat × Act)) (faults : Nat → Option (E × Nat)) (c0 : Client Chip H) :
    Client Chip H → Prop where
  | start : ClientRun sched faults c0 c0
  | step {c : Client Chip H} (fuel : Nat) (o : Op Chip) : ClientRun sched faults c0 c →
      (∀ g, o = .reactivate g → Passes c.dev.bus (g c.dev.bus)) →
      ClientRun sched faults c0 (c.step (Chip.dev sched faults).bus fuel o)

/-- Histories in which no operation concerns socket `n`. -/
inductive AsideRun {E H : Type} (sched : Nat → List (Nat × Act)) (faults : Nat → Option (E × Nat)) (n : Nat)
    (c0 : Client Chip H) : Client Chip H → Prop where
  | start : AsideRun sched faults n c0 c0
  | step {c : Client Chip H} (fuel : Nat) (o : Op Chip) : AsideRun sched faults n c0 c → Aside n c o →
      AsideRun sched faults n c0 (c.step (Chip.dev sched faults).bus fuel o)

/-- What a call on the UDP handle at position `i`, holding `u`, contributes to the records of `UdpRun`; with the conditions
of `UdpRun` on failed calls. `c'` is the client after the call. -/
inductive UdpCall {E H : Type} (sched : Nat → List (Nat × Act)) (faults : Nat → Option (E × Nat)) (n fuel i : Nat)
    (u : UdpSocket) (c c' : Client Chip H) : Op Chip → List UdpSent → List UdpGot → Prop where
  | setPort (port : U16) : UdpCall sched faults n fuel i u c c' (.udpSetPort i port) [] []
  | bind (port : U16) : UdpCall sched faults n fuel i u c c' (.udpBind i port) [] []
  | connect (remote : SockAddr) :
      Settled n remote (Device.udpConnect (Chip.dev sched faults).bus remote (u, c.dev)).2.1 c.dev.bus c'.dev.bus →
      UdpCall sched faults n fuel i u c c' (.udpConnect i remote) [] []
  | send (data : List U8) (dst : SockAddr4) : u.destination = some dst →
      (Device.udpSend (Chip.dev sched faults).bus fuel u data c.dev).1 = .ok () →
      UdpCall sched faults n fuel i u c c' (.udpSend i data) [⟨dst, data, true⟩] []
  | failedSend (data : List U8) (dst : SockAddr4) : u.destination = some dst →
      (Device.udpSend (Chip.dev sched faults).bus fuel u data c.dev).1 ≠ .ok () → Drained n c'.dev.bus →
      UdpCall sched faults n fuel i u c c' (.udpSend i data) [⟨dst, data, false⟩] []
  | sendNowhere (data : List U8) : u.destination = none → UdpCall sched faults n fuel i u c c' (.udpSend i data) [] []
  | sendTo (dst : SockAddr4) (data : List U8) :
      (Device.udpSendTo (Chip.dev sched faults).bus fuel (.v4 dst) data (u, c.dev)).1 = .ok () →
      UdpCall sched faults n fuel i u c c' (.udpSendTo i (.v4 dst) data) [⟨dst, data, true⟩] []
  | failedSendTo (dst : SockAddr4) (data : List U8) :
      (Device.udpSendTo (Chip.dev sched faults).bus fuel (.v4 dst) data (u, c.dev)).1 ≠ .ok () → Drained n c'.dev.bus →
      Settled n (.v4 dst) (Device.udpSendTo (Chip.dev sched faults).bus fuel (.v4 dst) data (u, c.dev)).2.1 c.dev.bus
        c'.dev.bus →
      UdpCall sched faults n fuel i u c c' (.udpSendTo i (.v4 dst) data) [⟨dst, data, false⟩] []
  | sendTo6 (segments : List U16) (port : U16) (data : List U8) :
      UdpCall sched faults n fuel i u c c' (.udpSendTo i (.v6 segments port) data) [] []
  | receive (buf buf' : List U8) (k : Nat) (origin : SockAddr) :
      (Device.udpReceive (Chip.dev sched faults).bus fuel u (buf, c.dev)).1 = .ok (k, origin) →
      (Device.udpReceive (Chip.dev sched faults).bus fuel u (buf, c.dev)).2.1 = buf' →
      UdpCall sched faults n fuel i u c c' (.udpReceive i buf) [] [⟨buf, k, origin, buf'⟩]
  | failedReceive (buf : List U8) :
      (∀ x, (Device.udpReceive (Chip.dev sched faults).bus fuel u (buf, c.dev)).1 ≠ .ok x) →
      (c'.dev.bus.socks n).rxRdReg = (c.dev.bus.socks n).rxRdReg →
      UdpCall sched faults n fuel i u c c' (.udpReceive i buf) [] []

/-- `UdpClient sched faults n c0 log got c`: from `c0` the client gets to `c` by any calls, with the sends `log` and the
successful receives `got` on its UDP socket `n`. -/
inductive UdpClient {E H : Type} (sched : Nat → List (Nat × Act)) (faults : Nat → Option (E × Nat)) (n : Nat)
    (c0 : Client Chip H) : List UdpSent → List UdpGot → Client Chip H → Prop where
  | start : UdpClient sched faults n c0 [] [] c0
  | elsewhere {log : List UdpSent} {got : List UdpGot} {c : Client Chip H} (fuel : Nat) (o : Op Chip) :
      UdpClient sched faults n c0 log got c → Aside n c o →
      UdpClient sched faults n c0 log got (c.step (Chip.dev sched faults).bus fuel o)
  | call {log log' : List UdpSent} {got got' : List UdpGot} {c : Client Chip H} {u : UdpSocket} (fuel i : Nat) (o : Op Chip) :
      UdpClient sched faults n c0 log got c → c.live[i]? = some (.udp u) → u.socket.index.toNat = n →
      UdpCall sched faults n fuel i u c (c.step (Chip.dev sched faults).bus fuel o) o log' got' →
      UdpClient sched faults n c0 (log ++ log') (got ++ got') (c.step (Chip.dev sched faults).bus fuel o)

/-- Opening: `bind` or `connect` on the handle at position `i` returned `Ok`. -/
def UdpOpens {E H : Type} (B : Bus Chip E) (i : Nat) (u : UdpSocket) (c : Client Chip H) : Op Chip → Prop
  | .udpBind j port => j = i ∧ (Device.udpBind B port (u, c.dev)).1 = .ok ()
  | .udpConnect j remote => j = i ∧ (Device.udpConnect B remote (u, c.dev)).1 = .ok ()
  | _ => False

end W5500.Spec
