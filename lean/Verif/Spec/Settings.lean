import Verif.Spec.System
import Verif.Spec.Config
/-! # Programs that do not reset the chip -/

namespace W5500.Spec
open W5500

/-- Histories of a client without restriction, except that it never calls `reset_device`, and that while the device is deactivated,
time passes (the bus is not used for this chip). -/
inductive KeepRun {E H : Type} (sched : Nat → List (Nat × Act)) (faults : Nat → Option (E × Nat)) (c0 : Client Chip H) :
    Client Chip H → Prop where
  | start : KeepRun sched faults c0 c0
  | step {c : Client Chip H} (fuel : Nat) (o : Op Chip) : KeepRun sched faults c0 c → o ≠ .common .resetDevice →
      (∀ g, o = .reactivate g → Passes c.dev.bus (g c.dev.bus)) →
      KeepRun sched faults c0 (c.step (Chip.dev sched faults).bus fuel o)

end W5500.Spec
