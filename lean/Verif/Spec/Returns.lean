import Verif.Spec.Chip
/-! # Calls that return

The loops of the driver that have no bound in the source take a number of rounds (`fuel`) in the model. A call returns if
some number of rounds is enough; more rounds then change nothing. -/

namespace W5500.Spec
open W5500

/-- From state `s`, the call ends with outcome `r` (a result and the state it leaves). -/
def EndsWith {σ ε α : Type} (call : Nat → M σ ε α) (s : σ) (r : Res ε α × σ) : Prop :=
  r.1 ≠ .fuel ∧ ∃ N, ∀ fuel, N ≤ fuel → call fuel s = r

/-- From state `s`, the call does not loop for ever. -/
def Finishes {σ ε α : Type} (call : Nat → M σ ε α) (s : σ) : Prop := ∃ r, EndsWith call s r

/-- Whatever is committed on socket `n` leaves (or is dropped) some time later: the schedule never stops emitting. -/
def Emitting (sched : Nat → List (Nat × Act)) (n : Nat) : Prop := ∀ k, ∃ l, k ≤ l ∧ ∃ b, (n, .emit b) ∈ sched l

/-- The SENDOK interrupt of socket `n` is raised again and again. -/
def Confirming (sched : Nat → List (Nat × Act)) (n : Nat) : Prop :=
  ∀ k, ∃ l, k ≤ l ∧ ∃ b : U8, b.getLsbD 4 = true ∧ (n, .raise b) ∈ sched l

/-- No packet of socket `n` is dropped. -/
def Lossless (sched : Nat → List (Nat × Act)) (n : Nat) : Prop := ∀ k, (n, .emit false) ∉ sched k

/-- Again and again the status of socket `n` becomes ESTABLISHED (0x17) or CLOSED (0x00), for at least one byte time. -/
def Answering (sched : Nat → List (Nat × Act)) (n : Nat) : Prop :=
  ∀ k, ∃ l, k ≤ l ∧ (∃ x : U8, (x = 0x17 ∨ x = 0x00) ∧ (n, .status x) ∈ sched l) ∧
    ∀ y : U8, (n, .status y) ∈ sched l → y = 0x17 ∨ y = 0x00

end W5500.Spec
