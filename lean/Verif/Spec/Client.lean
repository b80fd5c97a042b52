import Verif.Model.Tcp
/-! # Client programs of a device

A client owns a `Device` and the sockets it was handed. Rust's ownership is what the list `live` stands for: a
handle obtained from `socket()`/`take_socket()` stays in the list until it is moved into `close`/`release_socket`
or dropped. `lost` is a ghost: the indices of the slots whose handle is gone although the slot was not released.

Not representable here, but in Spec/Forge.lean: handles of another device, and overwriting the public field `Socket::index`. -/

namespace W5500.Spec
open W5500

/-- A socket object owned by the client. -/
inductive Handle where
  | udp (u : UdpSocket)
  | tcp (t : TcpSocket)
  | raw (s : Socket)
deriving DecidableEq, Repr

def Handle.socket : Handle → Socket
  | udp u => u.socket
  | tcp t => t.socket
  | raw s => s

/-- Slot number of a handle. -/
def Handle.index (h : Handle) : Nat := h.socket.index.toNat

structure Client (W H : Type) where
  dev : Device W H
  live : List Handle
  lost : List Nat

/-- Device calls that involve no socket. -/
inductive CommonOp where
  | gateway | subnetMask | mac | ip | phyConfig | resetDevice | version | currentRetryTimeout
  | currentRetryCount
  | setMode (m : Mode)
  | setRetryTimeout (t : RetryTime)
  | setRetryCount (n : U8)

/-- One call of the public API (socket arguments are positions in `live`), or
* `leak i`: dropping a handle without closing it,
* `reactivate g`: `deactivate`, arbitrary other use `g` of the bus, `activate`. -/
inductive Op (W : Type) where
  | udpSocket | tcpSocket | takeSocket
  | udpSetPort (i : Nat) (port : U16)
  | udpConnect (i : Nat) (remote : SockAddr)
  | udpBind (i : Nat) (port : U16)
  | udpSend (i : Nat) (buffer : List U8)
  | udpSendTo (i : Nat) (remote : SockAddr) (buffer : List U8)
  | udpReceive (i : Nat) (buffer : List U8)
  | udpClose (i : Nat)
  | tcpConnect (i : Nat) (remote : SockAddr)
  | tcpSend (i : Nat) (buffer : List U8)
  | tcpReceive (i : Nat) (buffer : List U8)
  | tcpClose (i : Nat)
  | releaseSocket (i : Nat)
  | leak (i : Nat)
  | common (o : CommonOp)
  | reactivate (g : W → W)

/-- The position in `live` of the socket an operation works on. -/
def Op.target {W : Type} : Op W → Option Nat
  | udpSetPort i _ | udpConnect i _ | udpBind i _ | udpSend i _ | udpSendTo i _ _ | udpReceive i _
  | udpClose i | tcpConnect i _ | tcpSend i _ | tcpReceive i _ | tcpClose i | releaseSocket i
  | leak i => some i
  | _ => none

variable {W E H : Type}

/-- Effect of a common call on the bus. -/
def CommonOp.run (B : Bus W E) : CommonOp → W → W
  | gateway, w => (Device.gateway B w).2
  | subnetMask, w => (Device.subnetMask B w).2
  | mac, w => (Device.mac B w).2
  | ip, w => (Device.ip B w).2
  | phyConfig, w => (Device.phyConfig B w).2
  | resetDevice, w => (resetChip B w).2
  | version, w => (W5500.version B w).2
  | currentRetryTimeout, w => (W5500.currentRetryTimeout B w).2
  | currentRetryCount, w => (W5500.currentRetryCount B w).2
  | setMode m, w => (W5500.setMode B m w).2
  | setRetryTimeout t, w => (W5500.setRetryTimeout B t w).2
  | setRetryCount n, w => (W5500.setRetryCount B n w).2

namespace Client

/-- Store a newly allocated handle; on failure only the device changes. -/
def alloc {ε α : Type} (c : Client W H) (wrap : α → Handle) (r : Res ε α × Device W H) : Client W H :=
  match r.1 with
  | .ok a => { c with dev := r.2, live := c.live ++ [wrap a] }
  | _ => { c with dev := r.2 }

/-- A call with `&mut UdpSocket` on handle `i`. -/
def onUdp {ε α : Type} (c : Client W H) (i : Nat) (m : M (UdpSocket × Device W H) ε α) : Client W H :=
  match c.live[i]? with
  | some (.udp u) =>
    let r := m (u, c.dev)
    { c with dev := r.2.2, live := c.live.set i (.udp r.2.1) }
  | _ => c

/-- A call that consumes the handle `i`. If it does not return `Ok` the slot is lost. -/
def consume {ε α : Type} (c : Client W H) (i : Nat) (h : Handle) (r : Res ε α × Device W H) :
    Client W H :=
  { dev := r.2
    live := c.live.eraseIdx i
    lost := match r.1 with
      | .ok _ => c.lost
      | _ => c.lost ++ [h.index] }

/-- One operation. Operations on a position that holds no handle of the right kind do nothing (such programs
do not type-check in Rust). -/
def step (B : Bus W E) (fuel : Nat) (c : Client W H) : Op W → Client W H
  | .udpSocket => c.alloc .udp (Device.udpSocket (E := E) c.dev)
  | .tcpSocket => c.alloc .tcp (Device.tcpSocket (E := E) c.dev)
  | .takeSocket =>
    match Device.takeSocket (E := E) c.dev with
    | (.ok (some s), d) => { c with dev := d, live := c.live ++ [.raw s] }
    | (_, d) => { c with dev := d }
  | .udpSetPort i p => c.onUdp i (Device.onSockBus (UdpSocket.setPort B p))
  | .udpConnect i r => c.onUdp i (Device.udpConnect B r)
  | .udpBind i p => c.onUdp i (Device.udpBind B p)
  | .udpSend i b =>
    match c.live[i]? with
    | some (.udp u) => { c with dev := (Device.udpSend B fuel u b c.dev).2 }
    | _ => c
  | .udpSendTo i r b => c.onUdp i (Device.udpSendTo B fuel r b)
  | .udpReceive i b =>
    match c.live[i]? with
    | some (.udp u) => { c with dev := (Device.udpReceive B fuel u (b, c.dev)).2.2 }
    | _ => c
  | .udpClose i =>
    match c.live[i]? with
    | some (.udp u) => c.consume i (.udp u) (Device.udpClose B u c.dev)
    | _ => c
  | .tcpConnect i r =>
    match c.live[i]? with
    | some (.tcp t) => { c with dev := (Device.tcpConnect B fuel t r c.dev).2 }
    | _ => c
  | .tcpSend i b =>
    match c.live[i]? with
    | some (.tcp t) => { c with dev := (Device.tcpSend B fuel t b c.dev).2 }
    | _ => c
  | .tcpReceive i b =>
    match c.live[i]? with
    | some (.tcp t) => { c with dev := (Device.tcpReceive B fuel t (b, c.dev)).2.2 }
    | _ => c
  | .tcpClose i =>
    match c.live[i]? with
    | some (.tcp t) => c.consume i (.tcp t) (Device.tcpClose B t c.dev)
    | _ => c
  | .releaseSocket i =>
    match c.live[i]? with
    | some (.raw s) => c.consume i (.raw s) (Device.releaseSocket (E := E) s c.dev)
    | _ => c
  | .leak i =>
    match c.live[i]? with
    | some h => { c with live := c.live.eraseIdx i, lost := c.lost ++ [h.index] }
    | none => c
  | .common o => { c with dev := { c.dev with bus := o.run B c.dev.bus } }
  | .reactivate g =>
    let (bus, inactive) := c.dev.deactivate
    { c with dev := inactive.activate (g bus) }

/-- A history. -/
def run (B : Bus W E) (fuel : Nat) (c : Client W H) (ops : List (Op W)) : Client W H :=
  ops.foldl (step B fuel) c

/-- A client that just got its device from `initialize*`: any bus state, `DeviceState::new`. -/
def initial (w : W) (host : H) : Client W H :=
  { dev := { bus := w, state := DeviceState.new host }, live := [], lost := [] }

end Client
end W5500.Spec
