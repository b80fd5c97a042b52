import Verif.Spec.Chip
/-! # Which data a receive call hands to its caller

A receive call must not give its caller anything but the message it delivers: not the messages of others, and not what is
left in the chip's memory. -/

namespace W5500.Spec
open W5500

/-- The caller's buffer before (`buf`) and after (`buf'`) a call: it has got the beginning of the message `msg`, and
behind it is what was there before. -/
def Stores (msg buf buf' : List U8) : Prop :=
  ∃ k, k ≤ msg.length ∧ k ≤ buf.length ∧ buf' = msg.take k ++ buf.drop k

/-- From time `t` on, nothing arrives at socket `n`. -/
def NoArrivals (sched : Nat → List (Nat × Act)) (n t : Nat) : Prop :=
  ∀ k, t ≤ k → ∀ a, (n, a) ∈ sched k → (∀ bs, a ≠ .arrive bs) ∧ (∀ d, a ≠ .datagram d) ∧ ∀ f, a ≠ .frame f

end W5500.Spec
