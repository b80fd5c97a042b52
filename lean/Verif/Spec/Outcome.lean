import Verif.Spec.Chip
import Verif.Model.Udp
/-! # Announcing what became of a packet

A W5500 socket announces a packet that left with the interrupt SENDOK (Sn_IR bit 4), and one that was dropped because
the address could not be resolved with TIMEOUT (bit 3). -/

namespace W5500.Spec
open W5500

/-- Nothing is announced, and no announcement is outstanding. -/
def Sock.Silent (s : Sock) : Prop :=
  ∀ i, i = 3 ∨ i = 4 → s.ir.getLsbD i = false ∧ s.owed.getLsbD i = false

/-- On socket `n`, SENDOK or TIMEOUT follow immediately on the packet they announce: before the host can read the next
byte. -/
def Prompt (sched : Nat → List (Nat × Act)) (n : Nat) : Prop :=
  ∀ k before b after, sched k = before ++ (n, .emit b) :: after →
    ∃ bits : U8, (n, .raise bits) ∈ after ∧ bits.getLsbD 3 = true ∧ bits.getLsbD 4 = true

/-- The result `r` of a send call tells what became of the packets sent between `c` and `c'`: all of them got out, except
the last one after `WriteTimeout`. -/
def Truthful {E : Type} (n : Nat) (c : Chip) (r : Res (NbError (UdpSocketError E)) Unit) (c' : Chip) : Prop :=
  ∃ ps : List Packet, (∀ q ∈ ps, q.delivered = true) ∧
    ((r ≠ .err (.other .writeTimeout) ∧ (c'.socks n).packets = (c.socks n).packets ++ ps) ∨
      (r = .err (.other .writeTimeout) ∧ ∃ q, q.delivered = false ∧
        (c'.socks n).packets = (c.socks n).packets ++ ps ++ [q]))

end W5500.Spec
