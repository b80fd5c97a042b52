import Verif.Spec.Block
import Verif.Spec.UdpHistory
import Verif.Spec.Ample
/-! # Questions and answers over UDP

A client of a service such as DNS or NTP sends a question and waits for the next datagram, which is to be the answer. -/

namespace W5500.Spec
open W5500
variable {W E H : Type}

/-- Such a client, once its socket is connected:

    block!(stack.send(&mut socket, question))?;
    let (k, origin) = block!(stack.receive(&mut socket, &mut buf))?;

`fuel` bounds the number of rounds of both loops, and is passed on to the calls. -/
def ask (B : Bus W E) (u : UdpSocket) (question : List U8) (fuel : Nat) :
    M (List U8 × Device W H) (UdpSocketError E) (Nat × SockAddr) := do
  M.onSnd (nbBlock (Device.udpSend B fuel u question) fuel)
  nbBlock (Device.udpReceive B fuel u) fuel

/-- From `d0` on, the client has asked questions one after the other. In every round some datagram came that fits into
the RX buffer, `ask` was given a buffer large enough for the datagrams and returned `Ok`, and no datagram came afterwards. -/
inductive Talk (sched : Nat → List (Nat × Act)) (faults : Nat → Option (E × Nat)) (n : Nat) (u : UdpSocket) (d0 : Device Chip H) :
    Device Chip H → Prop where
  | start : Talk sched faults n u d0 d0
  | round {d d' : Device Chip H} (question : List U8) (a : Dgram) (l : Nat) (buf buf' : List U8) (x : Nat × SockAddr) :
      Talk sched faults n u d0 d → a.Wf → a.encode.length ≤ (d.bus.socks n).rxSize → d.bus.clock ≤ l →
      (n, .datagram a) ∈ sched l → d.bus.Ample sched n buf.length →
      Succeeds (ask (Chip.dev sched faults).bus u question) (buf, d) x (buf', d') → (d'.bus.socks n).queue = [] →
      Talk sched faults n u d0 d'

end W5500.Spec
