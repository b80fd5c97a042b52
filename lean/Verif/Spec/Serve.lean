import Verif.Spec.Block
import Verif.Spec.UdpHistory
import Verif.Spec.Load
/-! # A server over UDP

A server waits for a request, and sends its answer to where the request came from. -/

namespace W5500.Spec
open W5500
variable {W E H : Type}

/-- One round of such a server, once its socket is bound:

    let (k, origin) = block!(stack.receive(&mut socket, &mut buf))?;
    block!(stack.send_to(&mut socket, origin, &answer(origin, &buf[..k])))?;

`fuel` bounds the number of rounds of both loops, and is passed on to the calls. -/
def serve (B : Bus W E) (answer : SockAddr → List U8 → List U8) (fuel : Nat) :
    M (List U8 × UdpSocket × Device W H) (UdpSocketError E) (Nat × SockAddr) := do
  let u := (← M.get).2.1
  let x ← M.zoom (fun s => (s.1, s.2.2)) (fun t s => (t.1, s.2.1, t.2)) (nbBlock (Device.udpReceive B fuel u) fuel)
  let request ← M.sliceTo (← M.get).1 x.1
  M.onSnd (nbBlock (Device.udpSendTo B fuel x.2 (answer x.2 request)) fuel)
  pure x

/-- `rounds` rounds of it, with one buffer. -/
def server (B : Bus W E) (answer : SockAddr → List U8 → List U8) : Nat → Nat →
    M (List U8 × UdpSocket × Device W H) (UdpSocketError E) Unit
  | 0, _ => pure ()
  | rounds + 1, fuel => do
    let _ ← serve B answer fuel
    server B answer rounds fuel

/-- `Serving sched faults n answer u0 c0 got u c`: the server has gone from `(u0, c0)` to `(u, c)` in rounds that returned `Ok`, and
in which `receive` returned `got`. In between, time passes, and other sockets are used. -/
inductive Serving {E : Type} (sched : Nat → List (Nat × Act)) (faults : Nat → Option (E × Nat)) (n : Nat)
    (answer : SockAddr → List U8 → List U8) (u0 : UdpSocket) (c0 : Chip) : List UdpGot → UdpSocket → Chip → Prop where
  | start : Serving sched faults n answer u0 c0 [] u0 c0
  | round {H : Type} {got : List UdpGot} {u u' : UdpSocket} {d d' : Device Chip H} (fuel : Nat) (buf buf' : List U8) (x : Nat × SockAddr) :
      Serving sched faults n answer u0 c0 got u d.bus →
      serve (Chip.dev sched faults).bus answer fuel (buf, u, d) = (.ok x, (buf', u', d')) →
      Serving sched faults n answer u0 c0 (got ++ [⟨buf, x.1, x.2, buf'⟩]) u' d'.bus
  | read {got : List UdpGot} {u : UdpSocket} {c : Chip} (block : U8) (addr : U16) (data : List U8) :
      Serving sched faults n answer u0 c0 got u c →
      Serving sched faults n answer u0 c0 got u ((Chip.dev sched faults).bus.readFrame c block addr data).2.2
  | write {got : List UdpGot} {u : UdpSocket} {c : Chip} (block : U8) (addr : U16) (data : List U8) :
      Serving sched faults n answer u0 c0 got u c → Foreign n block addr data →
      Serving sched faults n answer u0 c0 got u ((Chip.dev sched faults).bus.writeFrame c block addr data).2
  | pass {got : List UdpGot} {u : UdpSocket} {c c' : Chip} : Serving sched faults n answer u0 c0 got u c → Passes c c' →
      Serving sched faults n answer u0 c0 got u c'

/-- `Answered z answer got ds ps`: every result in `got` brought a different one of the datagrams `ds`, in order, and the packets `ps`
are, in this order, the answers to them: to the address and port the datagram came from goes what `answer` makes of the bytes that
`receive` reported, in pieces of at most `z` bytes. -/
inductive Answered (z : Nat) (answer : SockAddr → List U8 → List U8) : List UdpGot → List Dgram → List Packet → Prop where
  | none : Answered z answer [] [] []
  | lost {got : List UdpGot} {ds : List Dgram} {ps : List Packet} (d : Dgram) : Answered z answer got ds ps →
      Answered z answer got (ds ++ [d]) ps
  | answered {got : List UdpGot} {ds : List Dgram} {ps ps' : List Packet} {g : UdpGot} {d : Dgram} : Answered z answer got ds ps →
      g.Brings d → Carry (d.ip, d.port) (pieces z (answer g.origin (g.buf.take g.len))) ps' →
      Answered z answer (got ++ [g]) (ds ++ [d]) (ps ++ ps')

/-- A server that sends back what it gets. -/
def echo : SockAddr → List U8 → List U8 := fun _ request => request

end W5500.Spec
