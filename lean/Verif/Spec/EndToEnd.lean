import Verif.Spec.System
import Verif.Spec.RawHistory
/-! # Two programs talking to each other

Each end is a program on its own microcontroller with its own W5500 (own bus, own bus faults, own timing); between the two
chips there is a network, of which only the hypotheses below are known. -/

namespace W5500.Spec
open W5500

/-- One end of a TCP connection: a client got a device from `initialize*`, did anything, connected a TCP socket (then the
chip's socket was `s0`), and did anything from then on (now it is `s`). On the way `send` accepted `acc` and `receive`
delivered `del`. -/
inductive TcpEnd (s0 : Sock) (acc del : List U8) (s : Sock) : Prop where
  | mk {E H : Type} {sched : Nat → List (Nat × Act)} {faults : Nat → Option (E × Nat)} {w : Chip} {host : H}
      {c1 c : Client Chip H} {i n : Nat} {t : TcpSocket} (sizes : ∀ n, n < 8 → Sock.SizesOk (w.socks n).mem)
      (first : ClientRun sched faults (Client.initial w host) c1) (handle : c1.live[i]? = some (.tcp t))
      (index : t.socket.index.toNat = n) (fuel : Nat) (remote : SockAddr)
      (connected : (Device.tcpConnect (Chip.dev sched faults).bus fuel t remote c1.dev).1 = .ok ())
      (then_ : TcpClient sched faults n (c1.step (Chip.dev sched faults).bus fuel (.tcpConnect i remote)) acc del c)
      (before : s0 = (c1.step (Chip.dev sched faults).bus fuel (.tcpConnect i remote)).dev.bus.socks n)
      (after : s = c.dev.bus.socks n)

/-- One end of an exchange of datagrams: a client got a device, took a UDP socket from it, opened it (then the chip's socket
was `s0`), and did anything from then on (now it is `s`), with the sends `log` and the successful receives `got`. -/
inductive UdpEnd (s0 : Sock) (log : List UdpSent) (got : List UdpGot) (s : Sock) : Prop where
  | mk {E H : Type} {sched : Nat → List (Nat × Act)} {faults : Nat → Option (E × Nat)} {w : Chip} {host : H}
      {c1 c3 c : Client Chip H} {i n : Nat} {u : UdpSocket} {o : Op Chip} {log0 : List UdpSent} {got0 : List UdpGot}
      (sizes : ∀ n, n < 8 → Sock.SizesOk (w.socks n).mem) (first : ClientRun sched faults (Client.initial w host) c1)
      (new : .udp (UdpSocket.new (Socket.new (BitVec.ofNat 8 n))) ∈ c1.live) (bound : n < 8)
      (then_ : UdpClient sched faults n c1 log0 got0 c3) (handle : c3.live[i]? = some (.udp u))
      (index : u.socket.index.toNat = n) (fuel : Nat) (opened : UdpOpens (Chip.dev sched faults).bus i u c3 o)
      (last : UdpClient sched faults n (c3.step (Chip.dev sched faults).bus fuel o) log got c)
      (before : s0 = (c3.step (Chip.dev sched faults).bus fuel o).dev.bus.socks n)
      (after : s = c.dev.bus.socks n)

/-- The bytes `bs` arrived between `s0` and `s` or were waiting in `s0`. -/
def Since (s0 s : Sock) (bs : List U8) : Prop := ∃ old, s0.arrived = old ++ s0.queue ∧ s.arrived = old ++ bs

/-- A TCP connection from socket `a` to socket `b`: what arrived at `b` since it was connected is what `a` transmitted since it
was connected, or the beginning of it. -/
def Stream (a0 a b0 b : Sock) : Prop :=
  ∀ bs, Since b0 b bs → bs <+: a.stream.drop a0.stream.length

/-- What socket `a` transmitted to address `to` since `a0`, except the packets that got lost at once. -/
def emitted (to : SockAddr4) (a0 a : Sock) : List Packet :=
  (a.packets.drop a0.packets.length).filter fun p => p.delivered && decide ((p.ip, p.port) = wire to)

/-- A network that forges nothing: datagrams with source address `src` arriving at `b` are payloads `a` transmitted to
`dst`. It may lose, reorder and duplicate them. -/
def Unforged (src dst : SockAddr4) (a0 a b0 b : Sock) : Prop :=
  ∀ ds, (∀ d ∈ ds, d.Wf) → Since b0 b (encAll ds) → ∀ d ∈ ds, (d.ip, d.port) = wire src →
    ∃ p ∈ emitted dst a0 a, p.data = d.payload

/-- A network that in addition neither reorders nor duplicates them. -/
def Orderly (src dst : SockAddr4) (a0 a b0 b : Sock) : Prop :=
  ∀ ds, (∀ d ∈ ds, d.Wf) → Since b0 b (encAll ds) →
    ((ds.filter fun d => decide ((d.ip, d.port) = wire src)).map (·.payload)).Sublist ((emitted dst a0 a).map (·.data))

/-- The successful receive `g` put the bytes `p` at the beginning of the buffer. -/
def UdpGot.Holds (g : UdpGot) (p : List U8) : Prop := p.length ≤ g.buf.length ∧ g.buf.take p.length = p

/-- The receives `got` put the messages `ps` into their buffers, one each, in order. -/
inductive UdpGot.HoldAll : List UdpGot → List (List U8) → Prop where
  | nil : HoldAll [] []
  | cons {g : UdpGot} {p : List U8} {got : List UdpGot} {ps : List (List U8)} : g.Holds p → HoldAll got ps →
      HoldAll (g :: got) (p :: ps)

/-- One end of a wire with MACRAW devices: a program opened the device (then the chip's socket 0 was `s0`), and did anything
from then on (now it is `s`), with the calls `log` of `write_frame` and the successful calls `got` of `read_frame`. -/
inductive RawEnd (s0 : Sock) (log : List RawSent) (got : List RawGot) (s : Sock) : Prop where
  | mk {E : Type} {sched : Nat → List (Nat × Act)} {faults : Nat → Option (E × Nat)} {r : RawDevice} {c0 c : Chip}
      (opened : RawOpened sched faults r c0) (then_ : RawRun sched faults r c0 log got c) (before : s0 = c0.socks 0)
      (after : s = c.socks 0)

/-- The source address of an ethernet frame. -/
def sourceMac (f : List U8) : List U8 := (f.drop 6).take 6

/-- Frames with source address `mac` that arrived at `b` are frames `a` transmitted, perhaps padded. They may get lost,
reordered and duplicated. -/
def WireUnforged (mac : List U8) (a0 a b0 b : Sock) : Prop :=
  ∀ fs, (∀ f ∈ fs, f.length + 2 < 65536) → Since b0 b (encFrames fs) → ∀ f ∈ fs, sourceMac f = mac →
    ∃ p ∈ a.packets.drop a0.packets.length, p.data <+: f

/-- They are neither padded nor reordered nor duplicated; they may get lost. -/
def WireOrderly (mac : List U8) (a0 a b0 b : Sock) : Prop :=
  ∀ fs, (∀ f ∈ fs, f.length + 2 < 65536) → Since b0 b (encFrames fs) →
    (fs.filter fun f => decide (sourceMac f = mac)).Sublist ((a.packets.drop a0.packets.length).map (·.data))

end W5500.Spec
