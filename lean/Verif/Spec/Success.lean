import Verif.Spec.Returns
import Verif.Model.Udp
/-! # Calls that succeed

When nothing goes wrong — no transfer fails, the status of the socket stays what it has to be, what is sent leaves and
is announced — calls must succeed. -/

namespace W5500.Spec
open W5500

/-- No transfer fails. -/
structure Healthy {W E : Type} (B : Bus W E) : Prop where
  read : ∀ w block addr data, (B.readFrame w block addr data).1 = .ok ()
  write : ∀ w block addr data, (B.writeFrame w block addr data).1 = .ok ()

/-- If the environment changes the status of socket `n`, then to one of these. -/
def StatusIn (sched : Nat → List (Nat × Act)) (n : Nat) (p : U8 → Prop) : Prop := ∀ k x, (n, .status x) ∈ sched k → p x

/-- From state `s`, the call succeeds: it returns `a` and leaves the state `s'`. -/
def Succeeds {σ ε α : Type} (call : Nat → M σ ε α) (s : σ) (a : α) (s' : σ) : Prop := EndsWith call s (.ok a, s')

/-- No timeout of socket `n` is announced or due. -/
def Sock.NoTimeout (s : Sock) : Prop := s.ir.getLsbD 3 = false ∧ s.owed.getLsbD 3 = false

/-- The states of a TCP socket (datasheet, Sn_SR). -/
def TcpState (x : U8) : Prop :=
  x = 0x00 ∨ x = 0x13 ∨ x = 0x14 ∨ x = 0x15 ∨ x = 0x16 ∨ x = 0x17 ∨ x = 0x18 ∨ x = 0x1A ∨ x = 0x1B ∨ x = 0x1C ∨ x = 0x1D

instance (x : U8) : Decidable (TcpState x) := inferInstanceAs (Decidable (_ ∨ _))

/-- All datagrams `xs` are sent with `send`, one after the other, every call succeeding. -/
def AllSent {W E H : Type} (B : Bus W E) (u : UdpSocket) : List (List U8) → Device W H → Device W H → Prop
  | [], d, d' => d' = d
  | x :: xs, d, d' => ∃ d1, Succeeds (fun fuel => Device.udpSend B fuel u x) d () d1 ∧ AllSent B u xs d1 d'

end W5500.Spec
