import Verif.Spec.Respond
import Verif.Spec.Swift
/-! # A peer that closes the connection -/

namespace W5500.Spec
open W5500

/-- From time `T` on, socket `n` stays established until time `X`; then the peer closes the connection, or it is reset, and it is never established again. -/
structure EndingAt (sched : Nat → List (Nat × Act)) (n T X : Nat) : Prop where
  before : ∀ k x, T ≤ k → k < X → (n, .status x) ∈ sched k → x = 0x17
  now : ∃ x, (n, .status x) ∈ sched X
  after : ∀ k x, X ≤ k → (n, .status x) ∈ sched k → x ≠ 0x17

/-- As `ConfirmingIn`, from time `T` until time `X`. -/
def ConfirmingUntil (L : Nat) (sched : Nat → List (Nat × Act)) (n T X : Nat) : Prop :=
  ∀ k, T ≤ k → k + L ≤ X → ∃ l, k ≤ l ∧ l < k + L ∧ ∃ b : U8, b.getLsbD 4 = true ∧ (n, .raise b) ∈ sched l

/-- As `TakingIn`, from time `T` until time `X`. -/
def TakingUntil (L : Nat) (sched : Nat → List (Nat × Act)) (n T X : Nat) : Prop :=
  ∀ k, T ≤ k → k + L ≤ X →
    ∃ i j, k ≤ i ∧ i < j ∧ j < k + L ∧ (∃ a, 65536 ≤ a ∧ (n, .transmit a) ∈ sched i) ∧ ∃ b, 65536 ≤ b ∧ (n, .ack b) ∈ sched j

end W5500.Spec
