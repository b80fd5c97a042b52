import Verif.Spec.Chip
/-! # What a TCP SENDOK means

In TCP mode SENDOK (Sn_IR bit 4) says that the SEND command has completed. -/

namespace W5500.Spec
open W5500

/-- The chip does not raise SENDOK on TCP socket `n` before everything committed by SEND commands is transmitted. (A
`transmit` when nothing is pending does nothing, so this covers chips that transmit the data earlier and in portions.) -/
def SendOkSincere (sched : Nat → List (Nat × Act)) (n : Nat) : Prop :=
  ∀ k pre post (bits : U8), sched k = pre ++ (n, .raise bits) :: post → bits.getLsbD 4 = true →
    ∃ j, 65535 ≤ j ∧ (n, .transmit j) ∈ pre

/-- SENDOK is not raised on socket `n` at the times from `t` to `t'` (exclusive). -/
def SendOkQuiet (sched : Nat → List (Nat × Act)) (n t t' : Nat) : Prop :=
  ∀ k, t ≤ k → k < t' → ∀ bits : U8, (n, .raise bits) ∈ sched k → bits.getLsbD 4 = false

/-- SENDOK of the socket is pending. -/
def Sock.SendOk (s : Sock) : Prop := s.ir.getLsbD 4 = true

instance (s : Sock) : Decidable s.SendOk := inferInstanceAs (Decidable (_ = _))

end W5500.Spec
