import Verif.Spec.Success
/-! # Writing a whole buffer to a TCP connection

`send` of a TCP socket accepts a first part of the data, possibly nothing. A client that has to write a whole buffer
calls it again with the rest. -/

namespace W5500.Spec
open W5500

/-- The loop of such a client, for any `send`:

    while !data.is_empty() {
        let k = send(data)?;
        data = &data[k..];
    }

The first argument bounds the number of rounds. -/
def sendWhole {σ ε : Type} (send : List U8 → M σ ε Nat) : Nat → List U8 → M σ ε Unit
  | 0, _ => M.outOfFuel
  | rounds + 1, data =>
    if data.isEmpty then pure ()
    else do
      let k ← send data
      sendWhole send rounds (data.drop k)

/-- The network takes data from socket `n`: again and again the chip transmits at least one byte if any is to be
transmitted, and again and again the peer acknowledges at least one byte if any is to be acknowledged. -/
def Draining (sched : Nat → List (Nat × Act)) (n : Nat) : Prop :=
  (∀ k, ∃ l, k ≤ l ∧ ∃ j, 1 ≤ j ∧ (n, .transmit j) ∈ sched l) ∧
  (∀ k, ∃ l, k ≤ l ∧ ∃ j, 1 ≤ j ∧ (n, .ack j) ∈ sched l)

end W5500.Spec
