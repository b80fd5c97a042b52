import Verif.Spec.ReadAll
import Verif.Spec.WriteAll
/-! # Requests and responses over TCP

A client of a protocol such as Modbus sends a request and reads a response, the length of which it knows. -/

namespace W5500.Spec
open W5500
variable {W E H : Type}

/-- Such a client, once its socket is connected: it sends the whole request, and then reads `want` bytes. `fuel` bounds the
number of rounds of both loops, and is passed on to the calls. -/
def request (B : Bus W E) (t : TcpSocket) (data : List U8) (want : Nat) (fuel : Nat) :
    M (Device W H) (TcpSocketError E) (List U8) := do
  sendWhole (Device.tcpSend B fuel t) fuel data
  receiveWhole (Device.tcpReceive B fuel t) fuel want

/-- From time `t` on, something comes to socket `n` that fits into an RX buffer of `z` bytes, and the pieces that come until
then are at least `want` bytes long. -/
def Responded (sched : Nat → List (Nat × Act)) (n t z want : Nat) : Prop :=
  ∃ l, t ≤ l ∧ (∃ bs : List U8, (n, .arrive bs) ∈ sched l ∧ bs.length ≤ z) ∧
    ∀ k (bs : List U8), t ≤ k → k ≤ l → (n, .arrive bs) ∈ sched k → want ≤ bs.length

/-- From `d0` on, the client has made requests one after the other. Every response came in one piece, the round returned `Ok`,
and no byte came afterwards. -/
inductive Requests (sched : Nat → List (Nat × Act)) (faults : Nat → Option (E × Nat)) (n : Nat) (d0 : Device Chip H) :
    Device Chip H → Prop where
  | start : Requests sched faults n d0 d0
  | round {d d' : Device Chip H} (data : List U8) (want : Nat) (got : List U8) :
      Requests sched faults n d0 d → 0 < want → Responded sched n d.bus.clock (d.bus.socks n).rxSize want →
      Succeeds (request (Chip.dev sched faults).bus ⟨Socket.new (BitVec.ofNat 8 n)⟩ data want) d got d' →
      (d'.bus.socks n).queue = [] → Requests sched faults n d0 d'

end W5500.Spec
