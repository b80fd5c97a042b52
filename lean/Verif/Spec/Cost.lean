import Verif.Spec.Trace
import Verif.Spec.Chip
/-! # How much a call uses the bus

A meter counts the transfers on a bus and the data bytes transferred. -/

namespace W5500.Spec
open W5500

/-- Two counters that can be read off the state. -/
structure Meter (σ : Type) where
  transfers : σ → Nat
  bytes : σ → Nat

namespace Meter
variable {σ W E : Type}

/-- The meter is connected to the bus `B`: a transfer of `n` bytes, successful or not, counts for at most one transfer and at
most `n` bytes. -/
structure On (g : Meter W) (B : Bus W E) : Prop where
  read : ∀ w b a d, g.transfers (B.readFrame w b a d).2.2 ≤ g.transfers w + 1 ∧
    g.bytes (B.readFrame w b a d).2.2 ≤ g.bytes w + d.length
  write : ∀ w b a d, g.transfers (B.writeFrame w b a d).2 ≤ g.transfers w + 1 ∧
    g.bytes (B.writeFrame w b a d).2 ≤ g.bytes w + d.length

/-- From state `s` to state `s'` there were at most `t` transfers and `b` bytes. -/
def Spent (g : Meter σ) (s s' : σ) (t b : Nat) : Prop :=
  g.transfers s' ≤ g.transfers s + t ∧ g.bytes s' ≤ g.bytes s + b

instance (g : Meter σ) (s s' : σ) (t b : Nat) : Decidable (g.Spent s s' t b) := inferInstanceAs (Decidable (_ ∧ _))

/-- The meter on the bus of a device. -/
def dev {H : Type} (g : Meter W) : Meter (Device W H) := ⟨fun d => g.transfers d.bus, fun d => g.bytes d.bus⟩

/-- An observer on the wire, counting. -/
def log : Meter (TW W E) := ⟨fun t => t.log.length, fun t => (t.log.map fun e => e.data.length).sum⟩

/-- The chip, counting the transactions and the bytes accessed. -/
def chip : Meter Chip := ⟨Chip.txn, Chip.clock⟩

end Meter
end W5500.Spec
