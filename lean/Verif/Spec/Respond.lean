import Verif.Spec.Poll
import Verif.Spec.Swift
/-! # A program that looks for bytes on a TCP connection again and again and answers them -/

namespace W5500.Spec
open W5500
variable {W E H : Type}

/-- The peer takes what is sent: within any `L` SPI bytes everything that socket `n` has to transmit is transmitted, and then everything that is
transmitted is acknowledged. (`transmit k` and `ack k` stand for at most `k` bytes, and no buffer has more than 65536.) -/
def TakingIn (L : Nat) (sched : Nat → List (Nat × Act)) (n : Nat) : Prop :=
  ∀ k, ∃ i j, k ≤ i ∧ i < j ∧ j < k + L ∧ (∃ a, 65536 ≤ a ∧ (n, .transmit a) ∈ sched i) ∧ ∃ b, 65536 ≤ b ∧ (n, .ack b) ∈ sched j

/-- The pieces that come to socket `n` during the `g` SPI bytes from time `T` on. -/
def parcels (sched : Nat → List (Nat × Act)) (n T : Nat) : Nat → List (List U8)
  | 0 => []
  | g + 1 => parcels sched n T g ++ (news n (sched (T + g))).map Act.bytes

/-- One round:

    let k = stack.receive(&mut socket, &mut buf)?;
    if k > 0 { stack.send(&mut socket, &answer(&buf[..k]))?; }

`fuel` is passed on to the calls. -/
def tcpReply (B : Bus W E) (t : TcpSocket) (answer : List U8 → List U8) (buf : List U8) (fuel : Nat) : M (Device W H) (TcpSocketError E) Unit := do
  let (k, buf') ← M.withLocal buf (Device.tcpReceive B fuel t)
  if k = 0 then pure ()
  else
    let _ ← Device.tcpSend B fuel t (answer (buf'.take k))

/-- `rounds` rounds. -/
def tcpReplier (B : Bus W E) (t : TcpSocket) (answer : List U8 → List U8) (buf : List U8) : Nat → Nat → M (Device W H) (TcpSocketError E) Unit
  | 0, _ => pure ()
  | rounds + 1, fuel => do
    tcpReply B t answer buf fuel
    tcpReplier B t answer buf rounds fuel

end W5500.Spec
