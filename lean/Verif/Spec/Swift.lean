import Verif.Spec.Returns
/-! # Chips that are done within a given time

As in `Verif.Spec.Returns`, with a bound. Time is counted in bytes accessed over SPI. -/

namespace W5500.Spec
open W5500

/-- Whatever is committed on socket `n` leaves (or is dropped) within `L` SPI bytes. -/
def EmittingIn (L : Nat) (sched : Nat → List (Nat × Act)) (n : Nat) : Prop :=
  ∀ k, ∃ l, k ≤ l ∧ l < k + L ∧ ∃ b, (n, .emit b) ∈ sched l

/-- The SENDOK interrupt of socket `n` is raised within `L` SPI bytes, again and again. -/
def ConfirmingIn (L : Nat) (sched : Nat → List (Nat × Act)) (n : Nat) : Prop :=
  ∀ k, ∃ l, k ≤ l ∧ l < k + L ∧ ∃ b : U8, b.getLsbD 4 = true ∧ (n, .raise b) ∈ sched l

/-- Within `L` SPI bytes, again and again, the status of socket `n` becomes ESTABLISHED (0x17) or CLOSED (0x00), for at least one byte time. -/
def AnsweringIn (L : Nat) (sched : Nat → List (Nat × Act)) (n : Nat) : Prop :=
  ∀ k, ∃ l, k ≤ l ∧ l < k + L ∧ (∃ x : U8, (x = 0x17 ∨ x = 0x00) ∧ (n, .status x) ∈ sched l) ∧
    ∀ y : U8, (n, .status y) ∈ sched l → y = 0x17 ∨ y = 0x00

theorem EmittingIn.emitting {L n : Nat} {sched : Nat → List (Nat × Act)} (h : EmittingIn L sched n) : Emitting sched n := fun k =>
  have ⟨l, h1, _, h3⟩ := h k
  ⟨l, h1, h3⟩

end W5500.Spec
