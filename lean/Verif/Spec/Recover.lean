import Verif.Spec.Slow
import Verif.Spec.Success
import Verif.Spec.WriteAll
/-! # From now on

Conditions on what happens after the chip has reached the state `c`: events are scheduled by the number of SPI data bytes
so far, failures by the number of transactions so far. Nothing is said about what happened before. -/

namespace W5500.Spec
open W5500
variable {E : Type}

/-- From now on no transfer fails. -/
def NoFaultsFrom (faults : Nat → Option (E × Nat)) (c : Chip) : Prop := ∀ i, c.txn ≤ i → faults i = none

/-- If from now on the environment changes the status of socket `n`, then to one of these. -/
def StatusFrom (sched : Nat → List (Nat × Act)) (n : Nat) (p : U8 → Prop) (c : Chip) : Prop :=
  ∀ k x, c.clock ≤ k → (n, .status x) ∈ sched k → p x

/-- From now on no packet of socket `n` is dropped. -/
def LosslessFrom (sched : Nat → List (Nat × Act)) (n : Nat) (c : Chip) : Prop := ∀ k, c.clock ≤ k → (n, .emit false) ∉ sched k

/-- Two plans that are the same from now on. -/
structure Plan.AgreeFrom (p q : Plan E) (c : Chip) : Prop where
  sched : ∀ k, c.clock ≤ k → p.sched k = q.sched k
  faults : ∀ k, c.txn ≤ k → p.faults k = q.faults k

/-- All frames are written with `write_frame`, one after the other, every call accepting the whole frame. -/
def AllWritten {W E : Type} (B : Bus W E) (r : RawDevice) : List (List U8) → W → W → Prop
  | [], c, c' => c' = c
  | x :: xs, c, c' => ∃ c1, Succeeds (fun fuel => r.writeFrame B fuel x) c x.length c1 ∧ AllWritten B r xs c1 c'

end W5500.Spec
