import Verif.Spec.Client
/-! # Two buses that cannot be told apart

`R` relates the states of a bus `B` to those of a bus `B'`. If frames on either side give the same results and related
states, a program that only uses the bus cannot tell which one it has. -/

namespace W5500.Spec
open W5500
variable {W W' E : Type}

/-- Frames that read or write a block in `F` give the same answers and keep the states related. To blocks in `T` even
different data may be written, as long as they are related by `D`. -/
structure Respects (F T : U8 → Prop) (D : List U8 → List U8 → Prop) (B : Bus W E) (B' : Bus W' E) (R : W → W' → Prop) :
    Prop where
  read : ∀ b a d w w', F b → R w w' →
    (B.readFrame w b a d).1 = (B'.readFrame w' b a d).1 ∧ (B.readFrame w b a d).2.1 = (B'.readFrame w' b a d).2.1 ∧
    R (B.readFrame w b a d).2.2 (B'.readFrame w' b a d).2.2
  write : ∀ b a d w w', F b → R w w' →
    (B.writeFrame w b a d).1 = (B'.writeFrame w' b a d).1 ∧ R (B.writeFrame w b a d).2 (B'.writeFrame w' b a d).2
  store : ∀ b a d d' w w', T b → D d d' → R w w' →
    (B.writeFrame w b a d).1 = (B'.writeFrame w' b a d').1 ∧ R (B.writeFrame w b a d).2 (B'.writeFrame w' b a d').2

/-- Relations between payloads that are kept by cutting both at the same place. -/
structure Cut (D : List U8 → List U8 → Prop) : Prop where
  length : ∀ {d d'}, D d d' → d.length = d'.length
  take : ∀ {d d'} n, D d d' → D (d.take n) (d'.take n)
  drop : ∀ {d d'} n, D d d' → D (d.drop n) (d'.drop n)

/-- The blocks of the chip. -/
structure Blocks (F T : U8 → Prop) : Prop where
  common : F 0
  reg : ∀ n, n < 8 → F (Socket.new (BitVec.ofNat 8 n)).register
  rx : ∀ n, n < 8 → F (Socket.new (BitVec.ofNat 8 n)).rxBuffer
  tx : ∀ n, n < 8 → T (Socket.new (BitVec.ofNat 8 n)).txBuffer

/-! ## What a program sees -/

/-- What a call gives back to its caller: the result, and for calls with `&mut` arguments these arguments. -/
inductive Seen (E : Type) where
  | nothing
  | socket (r : Res E (Option Socket))
  | udpSocket (r : Res (UdpSocketError E) UdpSocket)
  | udp (r : Res (UdpSocketError E) Unit) (socket : UdpSocket)
  | udpSent (r : Res (NbError (UdpSocketError E)) Unit) (socket : UdpSocket)
  | udpReceived (r : Res (NbError (UdpSocketError E)) (Nat × SockAddr)) (buffer : List U8)
  | udpClosed (r : Res (UdpSocketError E) Unit)
  | tcpSocket (r : Res (TcpSocketError E) TcpSocket)
  | tcp (r : Res (TcpSocketError E) Unit)
  | tcpSent (r : Res (TcpSocketError E) Nat)
  | tcpReceived (r : Res (TcpSocketError E) Nat) (buffer : List U8)
  | address (r : Res E Ipv4)
  | mac (r : Res E Mac)
  | phy (r : Res E PhyConfig)
  | byte (r : Res E U8)
  | time (r : Res E RetryTime)
  | unit (r : Res E Unit)

variable {H : Type}

/-- What the caller of a common call sees. -/
def CommonOp.seen (B : Bus W E) : CommonOp → W → Seen E
  | gateway, w => .address (Device.gateway B w).1
  | subnetMask, w => .address (Device.subnetMask B w).1
  | mac, w => .mac (Device.mac B w).1
  | ip, w => .address (Device.ip B w).1
  | phyConfig, w => .phy (Device.phyConfig B w).1
  | resetDevice, w => .unit (resetChip B w).1
  | version, w => .byte (W5500.version B w).1
  | currentRetryTimeout, w => .time (W5500.currentRetryTimeout B w).1
  | currentRetryCount, w => .byte (W5500.currentRetryCount B w).1
  | setMode m, w => .unit (W5500.setMode B m w).1
  | setRetryTimeout t, w => .unit (W5500.setRetryTimeout B t w).1
  | setRetryCount n, w => .unit (W5500.setRetryCount B n w).1

namespace Client

/-- What a call with `&mut UdpSocket` shows. -/
def seenUdp {ε α : Type} (c : Client W H) (i : Nat) (m : M (UdpSocket × Device W H) ε α)
    (f : Res ε α → UdpSocket → Seen E) : Seen E :=
  match c.live[i]? with
  | some (.udp u) => f (m (u, c.dev)).1 (m (u, c.dev)).2.1
  | _ => .nothing

/-- What the caller of an operation sees. -/
def seen (B : Bus W E) (fuel : Nat) (c : Client W H) : Op W → Seen E
  | .udpSocket => .udpSocket (Device.udpSocket c.dev).1
  | .tcpSocket => .tcpSocket (Device.tcpSocket c.dev).1
  | .takeSocket => .socket (Device.takeSocket c.dev).1
  | .udpSetPort i p => c.seenUdp i (Device.onSockBus (UdpSocket.setPort B p)) .udp
  | .udpConnect i r => c.seenUdp i (Device.udpConnect B r) .udp
  | .udpBind i p => c.seenUdp i (Device.udpBind B p) .udp
  | .udpSend i b =>
    match c.live[i]? with
    | some (.udp u) => .udpSent (Device.udpSend B fuel u b c.dev).1 u
    | _ => .nothing
  | .udpSendTo i r b => c.seenUdp i (Device.udpSendTo B fuel r b) .udpSent
  | .udpReceive i b =>
    match c.live[i]? with
    | some (.udp u) =>
      .udpReceived (Device.udpReceive B fuel u (b, c.dev)).1 (Device.udpReceive B fuel u (b, c.dev)).2.1
    | _ => .nothing
  | .udpClose i =>
    match c.live[i]? with
    | some (.udp u) => .udpClosed (Device.udpClose B u c.dev).1
    | _ => .nothing
  | .tcpConnect i r =>
    match c.live[i]? with
    | some (.tcp t) => .tcp (Device.tcpConnect B fuel t r c.dev).1
    | _ => .nothing
  | .tcpSend i b =>
    match c.live[i]? with
    | some (.tcp t) => .tcpSent (Device.tcpSend B fuel t b c.dev).1
    | _ => .nothing
  | .tcpReceive i b =>
    match c.live[i]? with
    | some (.tcp t) =>
      .tcpReceived (Device.tcpReceive B fuel t (b, c.dev)).1 (Device.tcpReceive B fuel t (b, c.dev)).2.1
    | _ => .nothing
  | .tcpClose i =>
    match c.live[i]? with
    | some (.tcp t) => .tcp (Device.tcpClose B t c.dev).1
    | _ => .nothing
  | .releaseSocket i =>
    match c.live[i]? with
    | some (.raw s) => .unit (Device.releaseSocket s c.dev).1
    | _ => .nothing
  | .leak _ => .nothing
  | .common o => o.seen B c.dev.bus
  | .reactivate _ => .nothing

/-- Everything a program sees that performs the operations `ops`, each with its own number of rounds of polling. -/
def outputs (B : Bus W E) : Client W H → List (Nat × Op W) → List (Seen E)
  | _, [] => []
  | c, (fuel, o) :: ops => c.seen B fuel o :: outputs B (c.step B fuel o) ops

/-- The client after the operations `ops`. -/
def after (B : Bus W E) : Client W H → List (Nat × Op W) → Client W H
  | c, [] => c
  | c, (fuel, o) :: ops => after B (c.step B fuel o) ops

/-- Two clients that differ in the bus state only. -/
structure Like (R : W → W' → Prop) (c : Client W H) (c' : Client W' H) : Prop where
  bus : R c.dev.bus c'.dev.bus
  state : c.dev.state = c'.dev.state
  live : c.live = c'.live
  lost : c.lost = c'.lost

end Client

/-- The same operation, except that what is sent may differ as allowed by `D`, and that the other use of the bus (if any)
keeps the bus states related. -/
inductive Op.Like (D : List U8 → List U8 → Prop) (R : W → W' → Prop) : Op W → Op W' → Prop where
  | udpSocket : Like D R .udpSocket .udpSocket
  | tcpSocket : Like D R .tcpSocket .tcpSocket
  | takeSocket : Like D R .takeSocket .takeSocket
  | udpSetPort (i : Nat) (port : U16) : Like D R (.udpSetPort i port) (.udpSetPort i port)
  | udpConnect (i : Nat) (remote : SockAddr) : Like D R (.udpConnect i remote) (.udpConnect i remote)
  | udpBind (i : Nat) (port : U16) : Like D R (.udpBind i port) (.udpBind i port)
  | udpSend (i : Nat) {b b' : List U8} : D b b' → Like D R (.udpSend i b) (.udpSend i b')
  | udpSendTo (i : Nat) (remote : SockAddr) {b b' : List U8} : D b b' → Like D R (.udpSendTo i remote b) (.udpSendTo i remote b')
  | udpReceive (i : Nat) (buffer : List U8) : Like D R (.udpReceive i buffer) (.udpReceive i buffer)
  | udpClose (i : Nat) : Like D R (.udpClose i) (.udpClose i)
  | tcpConnect (i : Nat) (remote : SockAddr) : Like D R (.tcpConnect i remote) (.tcpConnect i remote)
  | tcpSend (i : Nat) {b b' : List U8} : D b b' → Like D R (.tcpSend i b) (.tcpSend i b')
  | tcpReceive (i : Nat) (buffer : List U8) : Like D R (.tcpReceive i buffer) (.tcpReceive i buffer)
  | tcpClose (i : Nat) : Like D R (.tcpClose i) (.tcpClose i)
  | releaseSocket (i : Nat) : Like D R (.releaseSocket i) (.releaseSocket i)
  | leak (i : Nat) : Like D R (.leak i) (.leak i)
  | common (o : CommonOp) : Like D R (.common o) (.common o)
  | reactivate {g : W → W} {g' : W' → W'} : (∀ w w', R w w' → R (g w) (g' w')) → Like D R (.reactivate g) (.reactivate g')

/-- The same list of operations, in that sense. -/
inductive Op.AllLike (D : List U8 → List U8 → Prop) (R : W → W' → Prop) : List (Nat × Op W) → List (Nat × Op W') → Prop where
  | nil : AllLike D R [] []
  | cons (fuel : Nat) {o : Op W} {o' : Op W'} {ops ops'} : Op.Like D R o o' → AllLike D R ops ops' →
      AllLike D R ((fuel, o) :: ops) ((fuel, o') :: ops')

end W5500.Spec
