import Verif.Spec.RawHistory
/-! # Histories in which calls fail early

A call fails early if it does not return `Ok` and made at most so many transfers (the failed one included). The client can count them, unlike the
conditions on pointer registers in `TcpRun`, `UdpRun` and `RawRun`. -/

namespace W5500.Spec
open W5500

/-- `TcpRough sched faults n c acc del c'`: as `TcpRun`, but what is said about failed calls is how many transfers they made: four if `send` failed,
six if `receive` did. `other` is anything that is neither accepted nor delivered. -/
inductive TcpRough {E : Type} (sched : Nat → List (Nat × Act)) (faults : Nat → Option (E × Nat)) (n : Nat) (c : Chip) :
    List U8 → List U8 → Chip → Prop where
  | start : TcpRough sched faults n c [] [] c
  | send {H : Type} {acc del : List U8} {d d' : Device Chip H} (fuel : Nat) (data : List U8) (k : Nat) :
      TcpRough sched faults n c acc del d.bus →
      Device.tcpSend (Chip.dev sched faults).bus fuel ⟨Socket.new (BitVec.ofNat 8 n)⟩ data d = (.ok k, d') →
      TcpRough sched faults n c (acc ++ data.take k) del d'.bus
  | receive {H : Type} {acc del : List U8} {d d' : Device Chip H} (fuel : Nat) (buf buf' : List U8) (k : Nat) :
      TcpRough sched faults n c acc del d.bus →
      Device.tcpReceive (Chip.dev sched faults).bus fuel ⟨Socket.new (BitVec.ofNat 8 n)⟩ (buf, d) = (.ok k, (buf', d')) →
      TcpRough sched faults n c acc (del ++ buf'.take k) d'.bus
  | failedSend {H : Type} {acc del : List U8} {d d' : Device Chip H} (fuel : Nat) (data : List U8) (r : Res (TcpSocketError E) Nat) :
      TcpRough sched faults n c acc del d.bus →
      Device.tcpSend (Chip.dev sched faults).bus fuel ⟨Socket.new (BitVec.ofNat 8 n)⟩ data d = (r, d') →
      (∀ k, r ≠ .ok k) → d'.bus.txn ≤ d.bus.txn + 4 → TcpRough sched faults n c acc del d'.bus
  | failedReceive {H : Type} {acc del : List U8} {d d' : Device Chip H} (fuel : Nat) (buf buf' : List U8) (r : Res (TcpSocketError E) Nat) :
      TcpRough sched faults n c acc del d.bus →
      Device.tcpReceive (Chip.dev sched faults).bus fuel ⟨Socket.new (BitVec.ofNat 8 n)⟩ (buf, d) = (r, (buf', d')) →
      (∀ k, r ≠ .ok k) → d'.bus.txn ≤ d.bus.txn + 6 → TcpRough sched faults n c acc del d'.bus
  | other {acc del : List U8} {c1 c2 : Chip} : TcpRough sched faults n c acc del c1 → TcpRun sched faults n c1 [] [] c2 →
      TcpRough sched faults n c acc del c2

/-- `UdpRough sched faults n u c sent got u' c'`: as `UdpRun`, with the sends `sent` that returned `Ok`. A failed `send` made at most six transfers, a
failed `receive` at most seven. `other` is anything that neither sends nor brings a datagram. -/
inductive UdpRough {E : Type} (sched : Nat → List (Nat × Act)) (faults : Nat → Option (E × Nat)) (n : Nat) (u0 : UdpSocket) (c0 : Chip) :
    List (SockAddr4 × List U8) → List UdpGot → UdpSocket → Chip → Prop where
  | start : UdpRough sched faults n u0 c0 [] [] u0 c0
  | send {H : Type} {sent : List (SockAddr4 × List U8)} {got : List UdpGot} {u : UdpSocket} {d d' : Device Chip H} (fuel : Nat) (data : List U8)
      (dst : SockAddr4) : UdpRough sched faults n u0 c0 sent got u d.bus →
      Device.udpSend (Chip.dev sched faults).bus fuel u data d = (.ok (), d') → u.destination = some dst →
      UdpRough sched faults n u0 c0 (sent ++ [(dst, data)]) got u d'.bus
  | sendTo {H : Type} {sent : List (SockAddr4 × List U8)} {got : List UdpGot} {u u' : UdpSocket} {d d' : Device Chip H} (fuel : Nat)
      (dst : SockAddr4) (data : List U8) : UdpRough sched faults n u0 c0 sent got u d.bus →
      Device.udpSendTo (Chip.dev sched faults).bus fuel (.v4 dst) data (u, d) = (.ok (), (u', d')) →
      UdpRough sched faults n u0 c0 (sent ++ [(dst, data)]) got u' d'.bus
  | receive {H : Type} {sent : List (SockAddr4 × List U8)} {got : List UdpGot} {u : UdpSocket} {d d' : Device Chip H} (fuel : Nat)
      (buf buf' : List U8) (k : Nat) (origin : SockAddr) : UdpRough sched faults n u0 c0 sent got u d.bus →
      Device.udpReceive (Chip.dev sched faults).bus fuel u (buf, d) = (.ok (k, origin), (buf', d')) →
      UdpRough sched faults n u0 c0 sent (got ++ [⟨buf, k, origin, buf'⟩]) u d'.bus
  | failedSend {H : Type} {sent : List (SockAddr4 × List U8)} {got : List UdpGot} {u : UdpSocket} {d d' : Device Chip H} (fuel : Nat)
      (data : List U8) (r : Res (NbError (UdpSocketError E)) Unit) : UdpRough sched faults n u0 c0 sent got u d.bus →
      Device.udpSend (Chip.dev sched faults).bus fuel u data d = (r, d') → r ≠ .ok () → d'.bus.txn ≤ d.bus.txn + 6 →
      UdpRough sched faults n u0 c0 sent got u d'.bus
  | failedReceive {H : Type} {sent : List (SockAddr4 × List U8)} {got : List UdpGot} {u : UdpSocket} {d d' : Device Chip H} (fuel : Nat)
      (buf buf' : List U8) (r : Res (NbError (UdpSocketError E)) (Nat × SockAddr)) : UdpRough sched faults n u0 c0 sent got u d.bus →
      Device.udpReceive (Chip.dev sched faults).bus fuel u (buf, d) = (r, (buf', d')) → (∀ x, r ≠ .ok x) → d'.bus.txn ≤ d.bus.txn + 7 →
      UdpRough sched faults n u0 c0 sent got u d'.bus
  | other {sent : List (SockAddr4 × List U8)} {got : List UdpGot} {u u' : UdpSocket} {c c' : Chip} :
      UdpRough sched faults n u0 c0 sent got u c → UdpRun sched faults n u c [] [] u' c' → UdpRough sched faults n u0 c0 sent got u' c'

/-- `RawRough sched faults r c sent got c'`: as `RawRun`, with the frames `sent` for which `write_frame` returned `Ok`. A failed `write_frame` or
`read_frame` made at most four transfers. `other` is anything that neither sends nor brings a frame. -/
inductive RawRough {E : Type} (sched : Nat → List (Nat × Act)) (faults : Nat → Option (E × Nat)) (r : RawDevice) (c0 : Chip) :
    List (List U8) → List RawGot → Chip → Prop where
  | start : RawRough sched faults r c0 [] [] c0
  | writeFrame {sent : List (List U8)} {got : List RawGot} {c c' : Chip} (fuel : Nat) (frame : List U8) (k : Nat) :
      RawRough sched faults r c0 sent got c → r.writeFrame (Chip.dev sched faults).bus fuel frame c = (.ok k, c') →
      RawRough sched faults r c0 (sent ++ [frame]) got c'
  | readFrame {sent : List (List U8)} {got : List RawGot} {c c' : Chip} (fuel : Nat) (buf buf' : List U8) (k : Nat) :
      RawRough sched faults r c0 sent got c → r.readFrame (Chip.dev sched faults).bus fuel (buf, c) = (.ok k, (buf', c')) →
      RawRough sched faults r c0 sent (got ++ [⟨buf, k, buf'⟩]) c'
  | failedWrite {sent : List (List U8)} {got : List RawGot} {c c' : Chip} (fuel : Nat) (frame : List U8) (x : Res E Nat) :
      RawRough sched faults r c0 sent got c → r.writeFrame (Chip.dev sched faults).bus fuel frame c = (x, c') → (∀ k, x ≠ .ok k) →
      c'.txn ≤ c.txn + 4 → RawRough sched faults r c0 sent got c'
  | failedRead {sent : List (List U8)} {got : List RawGot} {c c' : Chip} (fuel : Nat) (buf buf' : List U8) (x : Res E Nat) :
      RawRough sched faults r c0 sent got c → r.readFrame (Chip.dev sched faults).bus fuel (buf, c) = (x, (buf', c')) → (∀ k, x ≠ .ok k) →
      c'.txn ≤ c.txn + 4 → RawRough sched faults r c0 sent got c'
  | other {sent : List (List U8)} {got : List RawGot} {c c' : Chip} : RawRough sched faults r c0 sent got c →
      RawRun sched faults r c [] [] c' → RawRough sched faults r c0 sent got c'

end W5500.Spec
