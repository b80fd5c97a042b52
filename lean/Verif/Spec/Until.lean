import Verif.Spec.Slow
import Verif.Spec.Refusals
/-! # In the meantime -/

namespace W5500.Spec
open W5500
variable {E : Type}

/-- Two plans that are the same from the chip's state `c` until `c'`: events are scheduled by the number of SPI data bytes so far, failures by the number
of transactions so far. Nothing is said about before and after. -/
structure Plan.AgreeBetween (p q : Plan E) (c c' : Chip) : Prop where
  sched : ∀ k, c.clock ≤ k → k < c'.clock → p.sched k = q.sched k
  faults : ∀ k, c.txn ≤ k → k < c'.txn → p.faults k = q.faults k

end W5500.Spec
