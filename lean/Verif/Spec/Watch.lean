import Verif.Spec.Pace
/-! # A program that looks for datagrams again and again -/

namespace W5500.Spec
open W5500
variable {W E H : Type}

/-- The datagram, if one is received. -/
def Act.dgram? : Act → Option Dgram
  | .datagram d => some d
  | _ => none

/-- The datagrams that come to socket `n` during the `g` SPI bytes from time `T` on. -/
def came (sched : Nat → List (Nat × Act)) (n T : Nat) : Nat → List Dgram
  | 0 => []
  | g + 1 => came sched n T g ++ (news n (sched (T + g))).filterMap Act.dgram?

/-- From time `T` on, nothing comes to socket `n` but datagrams of which `fit` holds, at least `gap` SPI bytes apart. -/
def Spaced (sched : Nat → List (Nat × Act)) (n gap T : Nat) (fit : Dgram → Prop) : Prop :=
  ∀ k, T ≤ k → news n (sched k) ≠ [] → (∃ dg, news n (sched k) = [.datagram dg] ∧ fit dg) ∧
    ∀ j, k < j → j < k + gap → news n (sched j) = []

/-- What a program may do in the meantime: send from the socket, read anything, and write what does not concern the socket. -/
inductive Meantime {E : Type} (sched : Nat → List (Nat × Act)) (faults : Nat → Option (E × Nat)) (n : Nat) :
    UdpSocket → Chip → UdpSocket → Chip → Prop where
  | send {H : Type} {u : UdpSocket} {d d' : Device Chip H} (fuel : Nat) (data : List U8) :
      Device.udpSend (Chip.dev sched faults).bus fuel u data d = (.ok (), d') → Meantime sched faults n u d.bus u d'.bus
  | sendTo {H : Type} {u u' : UdpSocket} {d d' : Device Chip H} (fuel : Nat) (dst : SockAddr4) (data : List U8) :
      Device.udpSendTo (Chip.dev sched faults).bus fuel (.v4 dst) data (u, d) = (.ok (), (u', d')) →
      Meantime sched faults n u d.bus u' d'.bus
  | read (u : UdpSocket) (c : Chip) (block : U8) (addr : U16) (data : List U8) :
      Meantime sched faults n u c u ((Chip.dev sched faults).bus.readFrame c block addr data).2.2
  | write (u : UdpSocket) (c : Chip) (block : U8) (addr : U16) (data : List U8) : Foreign n block addr data →
      Meantime sched faults n u c u ((Chip.dev sched faults).bus.writeFrame c block addr data).2

/-- `Watches sched faults n m G u0 c0 got u t c`: from `(u0, c0)` a program that calls `receive` again and again, with a buffer of `m` bytes,
gets to `(u, c)`. The calls that returned `Ok` brought `got`, the others returned `WouldBlock`. The last one ended at time `t` (or the
program began then); every one begins at most `G` SPI bytes after the one before has ended. -/
inductive Watches {E : Type} (sched : Nat → List (Nat × Act)) (faults : Nat → Option (E × Nat)) (n m G : Nat) (u0 : UdpSocket) (c0 : Chip) :
    List UdpGot → UdpSocket → Nat → Chip → Prop where
  | start : Watches sched faults n m G u0 c0 [] u0 c0.clock c0
  | some {H : Type} {got : List UdpGot} {u : UdpSocket} {t : Nat} {d d' : Device Chip H} (fuel : Nat) (buf buf' : List U8) (k : Nat)
      (origin : SockAddr) : Watches sched faults n m G u0 c0 got u t d.bus → d.bus.clock ≤ t + G → buf.length = m →
      Device.udpReceive (Chip.dev sched faults).bus fuel u (buf, d) = (.ok (k, origin), (buf', d')) →
      Watches sched faults n m G u0 c0 (got ++ [⟨buf, k, origin, buf'⟩]) u d'.bus.clock d'.bus
  | none {H : Type} {got : List UdpGot} {u : UdpSocket} {t : Nat} {d d' : Device Chip H} (fuel : Nat) (buf buf' : List U8) :
      Watches sched faults n m G u0 c0 got u t d.bus → d.bus.clock ≤ t + G → buf.length = m →
      Device.udpReceive (Chip.dev sched faults).bus fuel u (buf, d) = (.err .wouldBlock, (buf', d')) →
      Watches sched faults n m G u0 c0 got u d'.bus.clock d'.bus
  | meantime {got : List UdpGot} {u u' : UdpSocket} {t : Nat} {c c' : Chip} : Watches sched faults n m G u0 c0 got u t c →
      Meantime sched faults n u c u' c' → Watches sched faults n m G u0 c0 got u' t c'

/-- A program looks once for a datagram:

    match stack.receive(socket, &mut buf) {
        Ok(x) => Some(x),
        Err(nb::Error::WouldBlock) => None,
        Err(nb::Error::Other(e)) => return Err(e),
    } -/
def poll (B : Bus W E) (fuel : Nat) (u : UdpSocket) (buf : List U8) : M (Device W H) (UdpSocketError E) (Option UdpGot) := fun d =>
  match Device.udpReceive B fuel u (buf, d) with
  | (.ok (k, origin), (buf', d')) => (.ok (some ⟨buf, k, origin, buf'⟩), d')
  | (.err .wouldBlock, (_, d')) => (.ok none, d')
  | (.err (.other e), (_, d')) => (.err e, d')
  | (.panic, (_, d')) => (.panic, d')
  | (.fuel, (_, d')) => (.fuel, d')

/-- It does so with each of these sockets, with a buffer for each, and returns what each call brought. -/
def turn (B : Bus W E) (fuel : Nat) : List (UdpSocket × List U8) → M (Device W H) (UdpSocketError E) (List (Option UdpGot))
  | [] => pure []
  | (u, buf) :: rest => do
    let first ← poll B fuel u buf
    let others ← turn B fuel rest
    pure (first :: others)

/-- It does so again and again. -/
def turns (B : Bus W E) (sockets : List (UdpSocket × List U8)) : Nat → Nat → M (Device W H) (UdpSocketError E) (List (List (Option UdpGot)))
  | 0, _ => pure []
  | rounds + 1, fuel => do
    let first ← turn B fuel sockets
    let rest ← turns B sockets rounds fuel
    pure (first :: rest)

/-- The socket with this number, and the buffer for it. -/
structure Post where
  index : Nat
  socket : UdpSocket
  buffer : List U8

/-- The most SPI bytes that a look at each of the sockets takes. -/
def lookTime (posts : List Post) : Nat := (posts.map fun p => p.buffer.length + 20).sum

/-- What was received on the socket at place `i`. -/
def column (i : Nat) (results : List (List (Option UdpGot))) : List UdpGot := results.filterMap fun row => row[i]?.join

end W5500.Spec
