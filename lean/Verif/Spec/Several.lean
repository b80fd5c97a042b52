import Verif.Spec.Respond
import Verif.Spec.Prompt
import Verif.Spec.Serve
import Verif.Spec.Watch
/-! # A program that serves several sockets in turn -/

namespace W5500.Spec
open W5500
variable {W E H : Type}

/-- A socket that a program serves, its buffer for it, and how it answers: a UDP socket, or a TCP connection. -/
inductive Desk where
  | udp (index : Nat) (socket : UdpSocket) (buf : List U8) (answer : SockAddr → List U8 → List U8)
  | tcp (index : Nat) (buf : List U8) (answer : List U8 → List U8)

/-- The number of the socket. -/
def Desk.index : Desk → Nat
  | .udp n _ _ _ => n
  | .tcp n _ _ => n

/-- What the program does with one socket. With a UDP socket:

    match stack.receive(&mut socket, &mut buf) {
        Ok((k, origin)) => block!(stack.send_to(&mut socket, origin, &answer(origin, &buf[..k])))?,
        Err(nb::Error::WouldBlock) => {}
        Err(nb::Error::Other(e)) => return Err(e),
    }

With a TCP connection:

    let k = stack.receive(&mut socket, &mut buf)?;
    if k > 0 { stack.send(&mut socket, &answer(&buf[..k]))?; }

It returns the socket as it is then. `fuel` bounds the number of rounds of `block!`, and is passed on to the calls. -/
def Desk.serve (B : Bus W E) (fuel : Nat) : Desk → M (Device W H) (UdpSocketError E ⊕ TcpSocketError E) Desk
  | .udp n u buf answer => do
    match ← M.mapErr .inl (poll B fuel u buf) with
    | none => pure (.udp n u buf answer)
    | some g => do
      let request ← M.sliceTo g.buf g.len
      let (_, u') ← M.mapErr .inl (M.withLocal u (nbBlock (Device.udpSendTo B fuel g.origin (answer g.origin request)) fuel))
      pure (.udp n u' buf answer)
  | .tcp n buf answer => do
    M.mapErr .inr (tcpReply B ⟨Socket.new (BitVec.ofNat 8 n)⟩ answer buf fuel)
    pure (.tcp n buf answer)

/-- It does so with each of them in turn. -/
def serveEach (B : Bus W E) (fuel : Nat) : List Desk → M (Device W H) (UdpSocketError E ⊕ TcpSocketError E) (List Desk)
  | [] => pure []
  | p :: rest => do
    let p' ← p.serve B fuel
    let rest' ← serveEach B fuel rest
    pure (p' :: rest')

/-- And that again and again. -/
def serveAlways (B : Bus W E) : List Desk → Nat → Nat → M (Device W H) (UdpSocketError E ⊕ TcpSocketError E) (List Desk)
  | desks, 0, _ => pure desks
  | desks, rounds + 1, fuel => do
    let desks' ← serveEach B fuel desks
    serveAlways B desks' rounds fuel

/-- What holds of a socket that the program begins to serve, if it looks at it again at most `G` SPI bytes after it has; and the time that serving it
takes.

A UDP socket `n`: it was opened (with `sched0`, `faults0` for what happened until then), and used since in any way; it stays open, nothing waits, is announced, or timed out; what is sent leaves within
`L` SPI bytes. An answer has at most `m` bytes. Nothing comes but datagrams that fit into the RX buffer and the program's, and those far enough apart.

A TCP connection on socket `n`: it was established by `connect`
(with `sched0`, `faults0`), and used since in any way; it stays, nothing waits, is announced, or is
unacknowledged; SENDOK is raised within `L'` SPI bytes, and the peer takes what is sent within `L`. An answer has at most `a` bytes, which fit into the TX
buffer. Nothing comes but pieces of at most `l` bytes, which fit into the RX buffer and the program's, and those far enough apart. -/
inductive Desk.Ready {E : Type} (sched : Nat → List (Nat × Act)) (faults : Nat → Option (E × Nat)) (H : Type) (G : Nat) : Desk → Nat → Chip → Prop where
  | udp {sched0 : Nat → List (Nat × Act)} {faults0 : Nat → Option (E × Nat)}
      {n L m : Nat} {v0 u : UdpSocket} {k0 c : Chip} {log : List UdpSent} {got : List UdpGot} {buf : List U8} {answer : SockAddr → List U8 → List U8} :
      n < 8 → StatusIn sched n (· = 0x22) → EmittingIn L sched n → Lossless sched n →
      UdpOpened sched0 faults0 n v0 k0 → UdpRun sched faults n v0 k0 log got u c →
      (c.socks n).sr = 0x22 → (c.socks n).NoTimeout → (c.socks n).queue = [] → ¬ (c.socks n).Announced → 0 < buf.length →
      (∀ o r, r.length ≤ buf.length → (answer o r).length ≤ m) →
      Spaced sched n (G + (buf.length + 20)) c.clock
        (fun dg => dg.Wf ∧ dg.encode.length ≤ (c.socks n).rxSize ∧ dg.payload.length ≤ buf.length) →
      Ready sched faults H G (.udp n u buf answer) (roundTime L (c.socks n).txSize buf.length m) c
  | tcp {sched0 : Nat → List (Nat × Act)} {faults0 : Nat → Option (E × Nat)}
      {n l a L L' fuel : Nat} {remote : SockAddr} {d0 d1 : Device Chip H} {c : Chip} {acc del buf : List U8}
      {answer : List U8 → List U8} :
      n < 8 → StatusIn sched n (· = 0x17) → ConfirmingIn L' sched n → TakingIn L sched n → Sock.SizesOk (d0.bus.socks n).mem →
      Device.tcpConnect (Chip.dev sched0 faults0).bus fuel ⟨Socket.new (BitVec.ofNat 8 n)⟩ remote d0 = (.ok (), d1) →
      TcpRun sched faults n d1.bus acc del c →
      (c.socks n).sr = 0x17 → (c.socks n).queue = [] → ¬ (c.socks n).Announced → (c.socks n).una = (c.socks n).txLimit → l ≤ (c.socks n).rxSize →
      l ≤ buf.length → (∀ bs, bs ≠ [] → bs.length ≤ l → (answer bs).length ≤ a) → a ≤ (c.socks n).txSize →
      Apart sched n (G + (l + 12) + (L' + a + 10) + L) c.clock l →
      Ready sched faults H G (.tcp n buf answer) ((l + 12) + (L' + a + 10)) c

/-- Everything that came to the socket from `c` until time `t` is answered in `c'`, each datagram or piece once, in order, and nothing else was sent. -/
def Desk.Served (sched : Nat → List (Nat × Act)) (c c' : Chip) (t : Nat) : Desk → Prop
  | .udp n _ _ answer => ∃ got, UdpGot.All got (came sched n c.clock (t - c.clock)) ∧
      (c'.socks n).packets = (c.socks n).packets ++ replies (c.socks n).txSize answer got (came sched n c.clock (t - c.clock))
  | .tcp n _ answer => (c'.socks n).stream ++ (c'.socks n).pending =
      (c.socks n).stream ++ (c.socks n).pending ++ (parcels sched n c.clock (t - c.clock)).flatMap answer

end W5500.Spec
