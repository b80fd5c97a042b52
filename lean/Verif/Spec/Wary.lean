import Verif.Spec.Rough
/-! # Histories of a UDP client that makes a failed `send_to` again

A `send_to` that fails may have changed some of the destination registers, while the socket object remembers the address of before. The client
knows that: until a `send_to` has returned `Ok`, it does not use `send`, and does not send to the address of before; it receives, or makes further
attempts, with the same address or a third one. -/

namespace W5500.Spec
open W5500

/-- It is safe to send to `dst`: no `send_to` failed since the last one that returned `Ok` (`p` is the address of the last one that did), or the last that
failed was for `dst`, or `dst` is not the address the object remembers. -/
def Safe (p : Option SockAddr4) (u : UdpSocket) (dst : SockAddr4) : Prop := p = none ∨ p = some dst ∨ u.destination ≠ some dst

/-- `UdpWary sched faults n u c p sent got u' c'`: as `UdpRough`, with calls of `send_to` that fail early: in one of the first eight transfers, or six if
the object remembers the address already (then the destination is not written). `p` is the address of the last such
call, if no `send_to` has returned `Ok` since. While there is one, nothing is sent to addresses that are not safe, and nothing with `send`. -/
inductive UdpWary {E : Type} (sched : Nat → List (Nat × Act)) (faults : Nat → Option (E × Nat)) (n : Nat) (u0 : UdpSocket) (c0 : Chip) :
    Option SockAddr4 → List (SockAddr4 × List U8) → List UdpGot → UdpSocket → Chip → Prop where
  | start : UdpWary sched faults n u0 c0 none [] [] u0 c0
  | send {H : Type} {sent : List (SockAddr4 × List U8)} {got : List UdpGot} {u : UdpSocket} {d d' : Device Chip H} (fuel : Nat) (data : List U8)
      (dst : SockAddr4) : UdpWary sched faults n u0 c0 none sent got u d.bus →
      Device.udpSend (Chip.dev sched faults).bus fuel u data d = (.ok (), d') → u.destination = some dst →
      UdpWary sched faults n u0 c0 none (sent ++ [(dst, data)]) got u d'.bus
  | sendTo {H : Type} {p : Option SockAddr4} {sent : List (SockAddr4 × List U8)} {got : List UdpGot} {u u' : UdpSocket} {d d' : Device Chip H}
      (fuel : Nat) (dst : SockAddr4) (data : List U8) : UdpWary sched faults n u0 c0 p sent got u d.bus → Safe p u dst →
      Device.udpSendTo (Chip.dev sched faults).bus fuel (.v4 dst) data (u, d) = (.ok (), (u', d')) →
      UdpWary sched faults n u0 c0 none (sent ++ [(dst, data)]) got u' d'.bus
  | receive {H : Type} {p : Option SockAddr4} {sent : List (SockAddr4 × List U8)} {got : List UdpGot} {u : UdpSocket} {d d' : Device Chip H}
      (fuel : Nat) (buf buf' : List U8) (k : Nat) (origin : SockAddr) : UdpWary sched faults n u0 c0 p sent got u d.bus →
      Device.udpReceive (Chip.dev sched faults).bus fuel u (buf, d) = (.ok (k, origin), (buf', d')) →
      UdpWary sched faults n u0 c0 p sent (got ++ [⟨buf, k, origin, buf'⟩]) u d'.bus
  | failedSend {H : Type} {sent : List (SockAddr4 × List U8)} {got : List UdpGot} {u : UdpSocket} {d d' : Device Chip H} (fuel : Nat)
      (data : List U8) (r : Res (NbError (UdpSocketError E)) Unit) : UdpWary sched faults n u0 c0 none sent got u d.bus →
      Device.udpSend (Chip.dev sched faults).bus fuel u data d = (r, d') → r ≠ .ok () → d'.bus.txn ≤ d.bus.txn + 6 →
      UdpWary sched faults n u0 c0 none sent got u d'.bus
  | failedSendTo {H : Type} {p : Option SockAddr4} {sent : List (SockAddr4 × List U8)} {got : List UdpGot} {u u' : UdpSocket}
      {d d' : Device Chip H} (fuel : Nat) (dst : SockAddr4) (data : List U8) (r : Res (NbError (UdpSocketError E)) Unit) :
      UdpWary sched faults n u0 c0 p sent got u d.bus → Safe p u dst →
      Device.udpSendTo (Chip.dev sched faults).bus fuel (.v4 dst) data (u, d) = (r, (u', d')) → r ≠ .ok () →
      d'.bus.txn ≤ d.bus.txn + (if u.destination = some dst then 6 else 8) →
      UdpWary sched faults n u0 c0 (some dst) sent got u' d'.bus
  | failedReceive {H : Type} {p : Option SockAddr4} {sent : List (SockAddr4 × List U8)} {got : List UdpGot} {u : UdpSocket}
      {d d' : Device Chip H} (fuel : Nat) (buf buf' : List U8) (r : Res (NbError (UdpSocketError E)) (Nat × SockAddr)) :
      UdpWary sched faults n u0 c0 p sent got u d.bus →
      Device.udpReceive (Chip.dev sched faults).bus fuel u (buf, d) = (r, (buf', d')) → (∀ x, r ≠ .ok x) → d'.bus.txn ≤ d.bus.txn + 7 →
      UdpWary sched faults n u0 c0 p sent got u d'.bus
  | other {sent : List (SockAddr4 × List U8)} {got : List UdpGot} {u u' : UdpSocket} {c c' : Chip} :
      UdpWary sched faults n u0 c0 none sent got u c → UdpRun sched faults n u c [] [] u' c' → UdpWary sched faults n u0 c0 none sent got u' c'
  | pass {p : Option SockAddr4} {sent : List (SockAddr4 × List U8)} {got : List UdpGot} {u : UdpSocket} {c c' : Chip} :
      UdpWary sched faults n u0 c0 p sent got u c → Passes c c' → UdpWary sched faults n u0 c0 p sent got u c'

end W5500.Spec
