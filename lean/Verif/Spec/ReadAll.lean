import Verif.Spec.Success
import Verif.Spec.Wakeup
/-! # Reading a given number of bytes from a TCP connection

`receive` of a TCP socket delivers some of the bytes that have arrived, possibly none. A client that needs a given number of
bytes calls it again for the rest. -/

namespace W5500.Spec
open W5500

/-- The loop of such a client, for any `receive`:

    while got.len() < want {
        let mut buf = vec![0; want - got.len()];
        let k = receive(&mut buf)?;
        got.extend(&buf[..k]);
    }

The first argument bounds the number of rounds, the second is the number of bytes still wanted. -/
def receiveWhole {σ ε : Type} (receive : M (List U8 × σ) ε Nat) : Nat → Nat → M σ ε (List U8)
  | 0, _ => M.outOfFuel
  | rounds + 1, want =>
    if want = 0 then pure []
    else do
      let (k, buf) ← M.withLocal (List.replicate want 0) receive
      let more ← receiveWhole receive rounds (want - k)
      pure (buf.take k ++ more)

/-- The peer keeps sending to socket `n`: again and again it tries the next byte, which is stored if there is room. -/
def Feeding (sched : Nat → List (Nat × Act)) (n : Nat) : Prop :=
  ∀ k, ∃ l, k ≤ l ∧ ∃ b, (n, .arrive [b]) ∈ sched l

/-- The chip raises RECV on socket `n` only for bytes that arrive. -/
def OnlyForBytes (sched : Nat → List (Nat × Act)) (n : Nat) : Prop :=
  ∀ k a, (n, a) ∈ sched k → a ≠ .arrive [] ∧ ∀ bits : U8, a = .raise bits → bits.getLsbD 2 = false

/-- The RX buffer is full, and that is not announced. -/
def Sock.Jammed (s : Sock) : Prop := s.rsr.toNat = s.rxSize ∧ ¬ s.Announced

instance (s : Sock) : Decidable s.Jammed := inferInstanceAs (Decidable (_ ∧ _))

end W5500.Spec
