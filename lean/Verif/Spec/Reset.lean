import Verif.Spec.Lost
/-! # A chip that loses its state at any moment

As in `Spec.Lost` the chip may be reset by a drop of the supply voltage or a pulse on its reset pin, but now this can happen
between any two SPI transactions, also in the middle of a call. -/

namespace W5500.Spec
open W5500
variable {E : Type}

/-- The bus to a chip that is reset right before transaction `i` whenever `lose i`. -/
def resetting (lose : Nat → Bool) (B : Bus Chip E) : Bus Chip E where
  readFrame c b a d := B.readFrame (if lose c.txn then c.powerCycle else c) b a d
  writeFrame c b a d := B.writeFrame (if lose c.txn then c.powerCycle else c) b a d
  read_length _ b a d := B.read_length _ b a d

/-- The chip was reset in the course of the transactions that lead from `c` to `c'`. -/
def WasReset (lose : Nat → Bool) (c c' : Chip) : Prop := ∃ i, c.txn ≤ i ∧ i < c'.txn ∧ lose i = true

end W5500.Spec
