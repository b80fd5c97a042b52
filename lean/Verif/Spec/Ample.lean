import Verif.Spec.Packets
/-! # Buffers that are large enough -/

namespace W5500.Spec
open W5500

/-- A buffer of `m` bytes is large enough for the datagrams of socket `n`: it is not empty, and no datagram has more than `m` bytes of
payload, of those that wait in the RX buffer and of those that come from now on and fit into the RX buffer. A buffer as large as the RX
buffer always is. -/
structure Chip.Ample (sched : Nat → List (Nat × Act)) (n m : Nat) (c : Chip) : Prop where
  some : 0 < m
  waiting : ∀ qs, (c.socks n).Queued qs → ∀ dg ∈ qs, dg.payload.length ≤ m
  coming : ∀ k dg, c.clock ≤ k → (n, .datagram dg) ∈ sched k → dg.Wf → dg.encode.length ≤ (c.socks n).rxSize → dg.payload.length ≤ m

end W5500.Spec
