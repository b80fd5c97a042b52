import Verif.Spec.Chip
import Verif.Model.Udp
import Verif.Model.Tcp
/-! # Being told that something arrived

The W5500 announces arrivals with the interrupt RECV (Sn_IR bit 2). A program that polls must not be told that there is
nothing while something waits. -/

namespace W5500.Spec
open W5500

/-- The RECV interrupt of the socket is pending. -/
def Sock.Announced (s : Sock) : Prop := s.ir.getLsbD 2 = true

instance (s : Sock) : Decidable s.Announced := inferInstanceAs (Decidable (_ = _))

/-- Whatever waits is announced. -/
def Sock.Noticed (s : Sock) : Prop := s.queue ≠ [] → s.Announced

/-- From time `t` on, nothing arrives at socket `n`, and RECV is not raised for other reasons. -/
def NoNews (sched : Nat → List (Nat × Act)) (n t : Nat) : Prop :=
  ∀ k, t ≤ k → ∀ a, (n, a) ∈ sched k →
    (∀ bs, a ≠ .arrive bs) ∧ (∀ d, a ≠ .datagram d) ∧ (∀ f, a ≠ .frame f) ∧ ∀ bits : U8, a = .raise bits → bits.getLsbD 2 = false

/-- `receive` calls on a UDP socket one after the other, each with its own fuel and buffer: their results, and the device
afterwards. -/
def udpPolls {W E H : Type} (B : Bus W E) (u : UdpSocket) :
    List (Nat × List U8) → Device W H → List (Res (NbError (UdpSocketError E)) (Nat × SockAddr)) × Device W H
  | [], d => ([], d)
  | (fuel, buf) :: more, d =>
    let r := Device.udpReceive B fuel u (buf, d)
    let rs := udpPolls B u more r.2.2
    (r.1 :: rs.1, rs.2)

/-- The same for a TCP socket. -/
def tcpPolls {W E H : Type} (B : Bus W E) (t : TcpSocket) :
    List (Nat × List U8) → Device W H → List (Res (TcpSocketError E) Nat) × Device W H
  | [], d => ([], d)
  | (fuel, buf) :: more, d =>
    let r := Device.tcpReceive B fuel t (buf, d)
    let rs := tcpPolls B t more r.2.2
    (r.1 :: rs.1, rs.2)

end W5500.Spec
