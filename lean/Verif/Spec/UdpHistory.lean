import Verif.Spec.Packets
import Verif.Spec.TcpHistory
import Verif.Model.Udp
/-! # Histories of a UDP socket -/

namespace W5500.Spec
open W5500

/-- An address as it has to be in the destination registers. -/
def wire (a : SockAddr4) : List U8 × List U8 := ([a.ip.a, a.ip.b, a.ip.c, a.ip.d], be a.port.toNat)

/-- The destination the socket object remembers is the one in the chip's destination registers. -/
def Coherent (n : Nat) (u : UdpSocket) (c : Chip) : Prop :=
  ∀ a, u.destination = some a → (c.socks n).dest = wire a

/-- A call that was to set destination `remote` was not interrupted halfway: it ended with `remote` remembered, or the
registers are as before. (IPv6 addresses are refused.) -/
def Settled (n : Nat) (remote : SockAddr) (u' : UdpSocket) (c c' : Chip) : Prop :=
  ∀ a, remote = .v4 a → u'.destination = some a ∨ (c'.socks n).dest = (c.socks n).dest

/-- `UdpCalls sched faults n u c`: everything that may have happened to a UDP socket object `u` for socket `n`, and to
the chip, since the object was handed out. Calls may end in any way (`Ok`, error, panic, endless waiting). -/
inductive UdpCalls {E : Type} (sched : Nat → List (Nat × Act)) (faults : Nat → Option (E × Nat)) (n : Nat) :
    UdpSocket → Chip → Prop where
  | new (c : Chip) : Sock.SizesOk (c.socks n).mem → UdpCalls sched faults n (UdpSocket.new (Socket.new (BitVec.ofNat 8 n))) c
  | connect {H : Type} {u u' : UdpSocket} {d d' : Device Chip H} (remote : SockAddr) (r : Res (UdpSocketError E) Unit) :
      UdpCalls sched faults n u d.bus → Device.udpConnect (Chip.dev sched faults).bus remote (u, d) = (r, (u', d')) →
      Settled n remote u' d.bus d'.bus → UdpCalls sched faults n u' d'.bus
  | setPort {H : Type} {u u' : UdpSocket} {d d' : Device Chip H} (port : U16) (r : Res (UdpSocketError E) Unit) :
      UdpCalls sched faults n u d.bus →
      Device.onSockBus (UdpSocket.setPort (Chip.dev sched faults).bus port) (u, d) = (r, (u', d')) →
      UdpCalls sched faults n u' d'.bus
  | bind {H : Type} {u u' : UdpSocket} {d d' : Device Chip H} (port : U16) (r : Res (UdpSocketError E) Unit) :
      UdpCalls sched faults n u d.bus → Device.udpBind (Chip.dev sched faults).bus port (u, d) = (r, (u', d')) →
      UdpCalls sched faults n u' d'.bus
  | send {H : Type} {u : UdpSocket} {d d' : Device Chip H} (fuel : Nat) (data : List U8)
      (r : Res (NbError (UdpSocketError E)) Unit) :
      UdpCalls sched faults n u d.bus → Device.udpSend (Chip.dev sched faults).bus fuel u data d = (r, d') →
      UdpCalls sched faults n u d'.bus
  | sendTo {H : Type} {u u' : UdpSocket} {d d' : Device Chip H} (fuel : Nat) (remote : SockAddr) (data : List U8)
      (r : Res (NbError (UdpSocketError E)) Unit) :
      UdpCalls sched faults n u d.bus →
      Device.udpSendTo (Chip.dev sched faults).bus fuel remote data (u, d) = (r, (u', d')) →
      Settled n remote u' d.bus d'.bus → UdpCalls sched faults n u' d'.bus
  | receive {H : Type} {u : UdpSocket} {d d' : Device Chip H} (fuel : Nat) (buf buf' : List U8)
      (r : Res (NbError (UdpSocketError E)) (Nat × SockAddr)) :
      UdpCalls sched faults n u d.bus →
      Device.udpReceive (Chip.dev sched faults).bus fuel u (buf, d) = (r, (buf', d')) →
      UdpCalls sched faults n u d'.bus
  | read {u : UdpSocket} {c : Chip} (block : U8) (addr : U16) (data : List U8) : UdpCalls sched faults n u c →
      UdpCalls sched faults n u ((Chip.dev sched faults).bus.readFrame c block addr data).2.2
  | write {u : UdpSocket} {c : Chip} (block : U8) (addr : U16) (data : List U8) : UdpCalls sched faults n u c →
      Foreign n block addr data → UdpCalls sched faults n u ((Chip.dev sched faults).bus.writeFrame c block addr data).2
  | pass {u : UdpSocket} {c c' : Chip} : UdpCalls sched faults n u c → Passes c c' → UdpCalls sched faults n u c'

/-- A send call: where to, what, and whether it returned `Ok`. -/
structure UdpSent where
  dst : SockAddr4
  data : List U8
  ok : Bool

/-- The packets `ps` are what the call `e` transmitted with a TX buffer of `z` bytes: the data in pieces of `z` bytes,
all of them if the call returned `Ok`, otherwise the first few of them. -/
def UdpSent.By (z : Nat) (e : UdpSent) (ps : List Packet) : Prop :=
  ∃ ds, ds <+: pieces z e.data ∧ (e.ok = true → ds = pieces z e.data) ∧ Carry (wire e.dst) ds ps

/-- The packets `ps` are what the calls `log` transmitted, one call after the other. -/
inductive UdpSent.All (z : Nat) : List UdpSent → List Packet → Prop where
  | nil : All z [] []
  | snoc {log : List UdpSent} {ps ps' : List Packet} {e : UdpSent} : All z log ps → e.By z ps' →
      All z (log ++ [e]) (ps ++ ps')

/-- What a successful `receive` into a buffer `before` told its caller: the returned length and origin, and the buffer
afterwards. -/
structure UdpGot where
  before : List U8
  len : Nat
  origin : SockAddr
  buf : List U8

/-- `g` brought the datagram `d` to the caller: its source, and its payload at the beginning of the buffer. -/
structure UdpGot.Brings (g : UdpGot) (d : Dgram) : Prop where
  origin : ∃ a, g.origin = .v4 a ∧ wire a = (d.ip, d.port)
  payload : g.buf.take d.payload.length = d.payload
  fits : d.payload.length ≤ g.before.length
  keeps : g.buf.length = g.before.length

/-- The results `got` brought some of the datagrams `ds`: every one a different datagram, in order. -/
inductive UdpGot.Among : List UdpGot → List Dgram → Prop where
  | nil : Among [] []
  | lost {got : List UdpGot} {ds : List Dgram} (d : Dgram) : Among got ds → Among got (ds ++ [d])
  | got {got : List UdpGot} {ds : List Dgram} {g : UdpGot} {d : Dgram} : Among got ds → g.Brings d →
      Among (got ++ [g]) (ds ++ [d])

/-- Everything handed to the chip for transmission has left. -/
def Drained (n : Nat) (c : Chip) : Prop := (c.socks n).txRd = (c.socks n).txWr

/-- `UdpRun sched faults n u c log got u' c'`: from `(u, c)` the socket object and the chip get to `(u', c')` with the
sends `log` and the successful receives `got`. Calls may fail in any way, with three exceptions:
* a failed send leaves nothing waiting in the TX buffer (true after `WriteTimeout`, and unless the bus failed);
* a failed `receive` leaves Sn_RX_RD alone;
* `connect` and `send_to` are not interrupted halfway through the destination registers.

`past`: what happened so far may have happened with any other schedule and faults. -/
inductive UdpRun {E : Type} : (Nat → List (Nat × Act)) → (Nat → Option (E × Nat)) → Nat → UdpSocket → Chip →
    List UdpSent → List UdpGot → UdpSocket → Chip → Prop where
  | start {sched : Nat → List (Nat × Act)} {faults : Nat → Option (E × Nat)} {n : Nat} {u0 : UdpSocket} {c0 : Chip} : UdpRun sched faults n u0 c0 [] [] u0 c0
  | send {sched : Nat → List (Nat × Act)} {faults : Nat → Option (E × Nat)} {n : Nat} {u0 : UdpSocket} {c0 : Chip}
      {H : Type} {log : List UdpSent} {got : List UdpGot} {u : UdpSocket} {d d' : Device Chip H} (fuel : Nat) (data : List U8)
      (dst : SockAddr4) : UdpRun sched faults n u0 c0 log got u d.bus →
      Device.udpSend (Chip.dev sched faults).bus fuel u data d = (.ok (), d') → u.destination = some dst →
      UdpRun sched faults n u0 c0 (log ++ [⟨dst, data, true⟩]) got u d'.bus
  | sendTo {sched : Nat → List (Nat × Act)} {faults : Nat → Option (E × Nat)} {n : Nat} {u0 : UdpSocket} {c0 : Chip}
      {H : Type} {log : List UdpSent} {got : List UdpGot} {u u' : UdpSocket} {d d' : Device Chip H} (fuel : Nat) (dst : SockAddr4)
      (data : List U8) : UdpRun sched faults n u0 c0 log got u d.bus →
      Device.udpSendTo (Chip.dev sched faults).bus fuel (.v4 dst) data (u, d) = (.ok (), (u', d')) →
      UdpRun sched faults n u0 c0 (log ++ [⟨dst, data, true⟩]) got u' d'.bus
  | failedSend {sched : Nat → List (Nat × Act)} {faults : Nat → Option (E × Nat)} {n : Nat} {u0 : UdpSocket} {c0 : Chip}
      {H : Type} {log : List UdpSent} {got : List UdpGot} {u : UdpSocket} {d d' : Device Chip H} (fuel : Nat) (data : List U8)
      (dst : SockAddr4) (r : Res (NbError (UdpSocketError E)) Unit) : UdpRun sched faults n u0 c0 log got u d.bus →
      Device.udpSend (Chip.dev sched faults).bus fuel u data d = (r, d') → u.destination = some dst → r ≠ .ok () →
      Drained n d'.bus → UdpRun sched faults n u0 c0 (log ++ [⟨dst, data, false⟩]) got u d'.bus
  | sendNowhere {sched : Nat → List (Nat × Act)} {faults : Nat → Option (E × Nat)} {n : Nat} {u0 : UdpSocket} {c0 : Chip}
      {H : Type} {log : List UdpSent} {got : List UdpGot} {u : UdpSocket} {d d' : Device Chip H} (fuel : Nat) (data : List U8)
      (r : Res (NbError (UdpSocketError E)) Unit) : UdpRun sched faults n u0 c0 log got u d.bus →
      Device.udpSend (Chip.dev sched faults).bus fuel u data d = (r, d') → u.destination = none →
      UdpRun sched faults n u0 c0 log got u d'.bus
  | failedSendTo {sched : Nat → List (Nat × Act)} {faults : Nat → Option (E × Nat)} {n : Nat} {u0 : UdpSocket} {c0 : Chip}
      {H : Type} {log : List UdpSent} {got : List UdpGot} {u u' : UdpSocket} {d d' : Device Chip H} (fuel : Nat)
      (dst : SockAddr4) (data : List U8) (r : Res (NbError (UdpSocketError E)) Unit) :
      UdpRun sched faults n u0 c0 log got u d.bus →
      Device.udpSendTo (Chip.dev sched faults).bus fuel (.v4 dst) data (u, d) = (r, (u', d')) → r ≠ .ok () →
      Drained n d'.bus → Settled n (.v4 dst) u' d.bus d'.bus →
      UdpRun sched faults n u0 c0 (log ++ [⟨dst, data, false⟩]) got u' d'.bus
  | receive {sched : Nat → List (Nat × Act)} {faults : Nat → Option (E × Nat)} {n : Nat} {u0 : UdpSocket} {c0 : Chip}
      {H : Type} {log : List UdpSent} {got : List UdpGot} {u : UdpSocket} {d d' : Device Chip H} (fuel : Nat) (buf buf' : List U8)
      (k : Nat) (origin : SockAddr) : UdpRun sched faults n u0 c0 log got u d.bus →
      Device.udpReceive (Chip.dev sched faults).bus fuel u (buf, d) = (.ok (k, origin), (buf', d')) →
      UdpRun sched faults n u0 c0 log (got ++ [⟨buf, k, origin, buf'⟩]) u d'.bus
  | failedReceive {sched : Nat → List (Nat × Act)} {faults : Nat → Option (E × Nat)} {n : Nat} {u0 : UdpSocket} {c0 : Chip}
      {H : Type} {log : List UdpSent} {got : List UdpGot} {u : UdpSocket} {d d' : Device Chip H} (fuel : Nat)
      (buf buf' : List U8) (r : Res (NbError (UdpSocketError E)) (Nat × SockAddr)) :
      UdpRun sched faults n u0 c0 log got u d.bus →
      Device.udpReceive (Chip.dev sched faults).bus fuel u (buf, d) = (r, (buf', d')) → (∀ x, r ≠ .ok x) →
      (d'.bus.socks n).rxRdReg = (d.bus.socks n).rxRdReg → UdpRun sched faults n u0 c0 log got u d'.bus
  | connect {sched : Nat → List (Nat × Act)} {faults : Nat → Option (E × Nat)} {n : Nat} {u0 : UdpSocket} {c0 : Chip}
      {H : Type} {log : List UdpSent} {got : List UdpGot} {u u' : UdpSocket} {d d' : Device Chip H} (remote : SockAddr)
      (r : Res (UdpSocketError E) Unit) : UdpRun sched faults n u0 c0 log got u d.bus →
      Device.udpConnect (Chip.dev sched faults).bus remote (u, d) = (r, (u', d')) →
      Settled n remote u' d.bus d'.bus → UdpRun sched faults n u0 c0 log got u' d'.bus
  | setPort {sched : Nat → List (Nat × Act)} {faults : Nat → Option (E × Nat)} {n : Nat} {u0 : UdpSocket} {c0 : Chip}
      {H : Type} {log : List UdpSent} {got : List UdpGot} {u u' : UdpSocket} {d d' : Device Chip H} (port : U16)
      (r : Res (UdpSocketError E) Unit) : UdpRun sched faults n u0 c0 log got u d.bus →
      Device.onSockBus (UdpSocket.setPort (Chip.dev sched faults).bus port) (u, d) = (r, (u', d')) →
      UdpRun sched faults n u0 c0 log got u' d'.bus
  | bind {sched : Nat → List (Nat × Act)} {faults : Nat → Option (E × Nat)} {n : Nat} {u0 : UdpSocket} {c0 : Chip}
      {H : Type} {log : List UdpSent} {got : List UdpGot} {u u' : UdpSocket} {d d' : Device Chip H} (port : U16)
      (r : Res (UdpSocketError E) Unit) : UdpRun sched faults n u0 c0 log got u d.bus →
      Device.udpBind (Chip.dev sched faults).bus port (u, d) = (r, (u', d')) →
      UdpRun sched faults n u0 c0 log got u' d'.bus
  | read {sched : Nat → List (Nat × Act)} {faults : Nat → Option (E × Nat)} {n : Nat} {u0 : UdpSocket} {c0 : Chip}
      {log : List UdpSent} {got : List UdpGot} {u : UdpSocket} {c : Chip} (block : U8) (addr : U16) (data : List U8) :
      UdpRun sched faults n u0 c0 log got u c →
      UdpRun sched faults n u0 c0 log got u ((Chip.dev sched faults).bus.readFrame c block addr data).2.2
  | write {sched : Nat → List (Nat × Act)} {faults : Nat → Option (E × Nat)} {n : Nat} {u0 : UdpSocket} {c0 : Chip}
      {log : List UdpSent} {got : List UdpGot} {u : UdpSocket} {c : Chip} (block : U8) (addr : U16) (data : List U8) :
      UdpRun sched faults n u0 c0 log got u c → Foreign n block addr data →
      UdpRun sched faults n u0 c0 log got u ((Chip.dev sched faults).bus.writeFrame c block addr data).2
  | pass {sched : Nat → List (Nat × Act)} {faults : Nat → Option (E × Nat)} {n : Nat} {u0 : UdpSocket} {c0 : Chip}
      {log : List UdpSent} {got : List UdpGot} {u : UdpSocket} {c c' : Chip} : UdpRun sched faults n u0 c0 log got u c → Passes c c' →
      UdpRun sched faults n u0 c0 log got u c'
  | past {sched sched' : Nat → List (Nat × Act)} {faults faults' : Nat → Option (E × Nat)} {n : Nat} {u0 u : UdpSocket}
      {c0 c : Chip} {log : List UdpSent} {got : List UdpGot} :
      UdpRun sched' faults' n u0 c0 log got u c → UdpRun sched faults n u0 c0 log got u c

/-- The object and the chip right after a successful `bind` or `connect`, in any history, or after a successful `connect`
from any state in which the destination the object remembers, if any, is in the chip. -/
inductive UdpOpened {E : Type} (sched : Nat → List (Nat × Act)) (faults : Nat → Option (E × Nat)) (n : Nat) :
    UdpSocket → Chip → Prop where
  | bind {H : Type} {u u' : UdpSocket} {d d' : Device Chip H} (port : U16) : UdpCalls sched faults n u d.bus →
      Device.udpBind (Chip.dev sched faults).bus port (u, d) = (.ok (), (u', d')) → UdpOpened sched faults n u' d'.bus
  | connect {H : Type} {u u' : UdpSocket} {d d' : Device Chip H} (remote : SockAddr) : UdpCalls sched faults n u d.bus →
      Device.udpConnect (Chip.dev sched faults).bus remote (u, d) = (.ok (), (u', d')) →
      UdpOpened sched faults n u' d'.bus
  | anew {H : Type} {u u' : UdpSocket} {d d' : Device Chip H} (remote : SockAddr) : u.socket = Socket.new (BitVec.ofNat 8 n) →
      Sock.SizesOk (d.bus.socks n).mem → Coherent n u d.bus →
      Device.udpConnect (Chip.dev sched faults).bus remote (u, d) = (.ok (), (u', d')) →
      UdpOpened sched faults n u' d'.bus

end W5500.Spec
