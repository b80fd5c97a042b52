import Verif.Spec.Chip
/-! # How much comes in a stretch of time -/

namespace W5500.Spec
open W5500

/-- The bytes of RX memory that need those of these events which are for socket `n`. -/
def need (n : Nat) : List (Nat × Act) → Nat
  | [] => 0
  | (i, .datagram dg) :: l => (if i = n then dg.encode.length else 0) + need n l
  | (i, .arrive bs) :: l => (if i = n then bs.length else 0) + need n l
  | (i, .frame f) :: l => (if i = n then (encodeFrame f).length else 0) + need n l
  | _ :: l => need n l

/-- ... those that come before the `g` SPI bytes from time `t` on. -/
def load (sched : Nat → List (Nat × Act)) (n t : Nat) : Nat → Nat
  | 0 => 0
  | g + 1 => load sched n t g + need n (sched (t + g))

end W5500.Spec
