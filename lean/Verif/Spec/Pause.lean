import Verif.Spec.Pace
/-! # A pause before the last piece -/

namespace W5500.Spec
open W5500

/-- The bytes that these events bring to the TCP socket `n`. -/
def bytesFor (n : Nat) : List (Nat × Act) → List U8
  | [] => []
  | (i, .arrive bs) :: l => (if i = n then bs else []) ++ bytesFor n l
  | _ :: l => bytesFor n l

/-- ... those that come during the `g` SPI bytes from time `t` on. -/
def coming (sched : Nat → List (Nat × Act)) (n t : Nat) : Nat → List U8
  | 0 => []
  | g + 1 => coming sched n t g ++ bytesFor n (sched (t + g))

/-- At time `a` a piece comes to socket `n`. Before it there is a pause of `g` SPI bytes in which nothing comes; the pause begins at time
`t` or later. -/
structure Paused (sched : Nat → List (Nat × Act)) (n t a g : Nat) : Prop where
  piece : ∃ bs, (n, .arrive bs) ∈ sched a
  pause : ∃ b, t ≤ b ∧ b + g ≤ a ∧ ∀ k, b ≤ k → k < a → news n (sched k) = []

end W5500.Spec
