import Verif.Spec.RawHistory
/-! # Histories in which the bus does not fail

As `TcpRun`, `UdpCalls`, `UdpRun` and `RawRun`, without any condition on the state a failed call leaves behind: a call may
return any error which is not an error of the bus. (`pass`, `read`, `write`: as there.) -/

namespace W5500.Spec
open W5500

/-- The call returned, and not with a bus error. -/
def TcpSound {E α : Type} (r : Res (TcpSocketError E) α) : Prop :=
  (∃ a, r = .ok a) ∨ ∃ e, r = .err e ∧ ∀ x, e ≠ .other x
def UdpSound {E α : Type} (r : Res (UdpSocketError E) α) : Prop :=
  (∃ a, r = .ok a) ∨ ∃ e, r = .err e ∧ ∀ x, e ≠ .other x
def NbSound {E α : Type} (r : Res (NbError (UdpSocketError E)) α) : Prop :=
  (∃ a, r = .ok a) ∨ ∃ e, r = .err e ∧ ∀ x, e ≠ .other (.other x)

/-- The bytes of `data` accepted by a `send` that returned `r`. -/
def accepted {ε : Type} (data : List U8) : Res ε Nat → List U8
  | .ok k => data.take k
  | _ => []

/-- A TCP connection on a bus that does not fail: `acc` accepted, `del` delivered. -/
inductive TcpSoundRun {E : Type} (sched : Nat → List (Nat × Act)) (faults : Nat → Option (E × Nat)) (n : Nat) (c : Chip) :
    List U8 → List U8 → Chip → Prop where
  | start : TcpSoundRun sched faults n c [] [] c
  | send {H : Type} {acc del : List U8} {d d' : Device Chip H} (fuel : Nat) (data : List U8)
      (r : Res (TcpSocketError E) Nat) : TcpSoundRun sched faults n c acc del d.bus →
      Device.tcpSend (Chip.dev sched faults).bus fuel ⟨Socket.new (BitVec.ofNat 8 n)⟩ data d = (r, d') → TcpSound r →
      TcpSoundRun sched faults n c (acc ++ accepted data r) del d'.bus
  | receive {H : Type} {acc del : List U8} {d d' : Device Chip H} (fuel : Nat) (buf buf' : List U8)
      (r : Res (TcpSocketError E) Nat) : TcpSoundRun sched faults n c acc del d.bus →
      Device.tcpReceive (Chip.dev sched faults).bus fuel ⟨Socket.new (BitVec.ofNat 8 n)⟩ (buf, d) = (r, (buf', d')) →
      TcpSound r → TcpSoundRun sched faults n c acc (del ++ accepted buf' r) d'.bus
  | read {acc del : List U8} {c1 : Chip} (block : U8) (addr : U16) (data : List U8) :
      TcpSoundRun sched faults n c acc del c1 →
      TcpSoundRun sched faults n c acc del ((Chip.dev sched faults).bus.readFrame c1 block addr data).2.2
  | write {acc del : List U8} {c1 : Chip} (block : U8) (addr : U16) (data : List U8) :
      TcpSoundRun sched faults n c acc del c1 → Foreign n block addr data →
      TcpSoundRun sched faults n c acc del ((Chip.dev sched faults).bus.writeFrame c1 block addr data).2
  | pass {acc del : List U8} {c1 c2 : Chip} : TcpSoundRun sched faults n c acc del c1 → Passes c1 c2 →
      TcpSoundRun sched faults n c acc del c2

/-- The log entry of a send. -/
def Res.isOk {ε α : Type} : Res ε α → Bool
  | .ok _ => true
  | _ => false

/-- The log of successful receives. -/
def received {ε : Type} (buf buf' : List U8) : Res ε (Nat × SockAddr) → List UdpGot
  | .ok (k, origin) => [⟨buf, k, origin, buf'⟩]
  | _ => []

/-- A UDP socket on a bus that does not fail: from `(u0, c0)` the socket object and the chip get to `(u, c)` with the sends
`log` and the successful receives `got`. -/
inductive UdpSoundRun {E : Type} (sched : Nat → List (Nat × Act)) (faults : Nat → Option (E × Nat)) (n : Nat)
    (u0 : UdpSocket) (c0 : Chip) : List UdpSent → List UdpGot → UdpSocket → Chip → Prop where
  | start : UdpSoundRun sched faults n u0 c0 [] [] u0 c0
  | send {H : Type} {log : List UdpSent} {got : List UdpGot} {u : UdpSocket} {d d' : Device Chip H} (fuel : Nat)
      (data : List U8) (dst : SockAddr4) (r : Res (NbError (UdpSocketError E)) Unit) :
      UdpSoundRun sched faults n u0 c0 log got u d.bus →
      Device.udpSend (Chip.dev sched faults).bus fuel u data d = (r, d') → NbSound r → u.destination = some dst →
      UdpSoundRun sched faults n u0 c0 (log ++ [⟨dst, data, Res.isOk r⟩]) got u d'.bus
  | sendNowhere {H : Type} {log : List UdpSent} {got : List UdpGot} {u : UdpSocket} {d d' : Device Chip H} (fuel : Nat)
      (data : List U8) (r : Res (NbError (UdpSocketError E)) Unit) : UdpSoundRun sched faults n u0 c0 log got u d.bus →
      Device.udpSend (Chip.dev sched faults).bus fuel u data d = (r, d') → u.destination = none →
      UdpSoundRun sched faults n u0 c0 log got u d'.bus
  | sendTo {H : Type} {log : List UdpSent} {got : List UdpGot} {u u' : UdpSocket} {d d' : Device Chip H} (fuel : Nat)
      (dst : SockAddr4) (data : List U8) (r : Res (NbError (UdpSocketError E)) Unit) :
      UdpSoundRun sched faults n u0 c0 log got u d.bus →
      Device.udpSendTo (Chip.dev sched faults).bus fuel (.v4 dst) data (u, d) = (r, (u', d')) → NbSound r →
      UdpSoundRun sched faults n u0 c0 (log ++ [⟨dst, data, Res.isOk r⟩]) got u' d'.bus
  | receive {H : Type} {log : List UdpSent} {got : List UdpGot} {u : UdpSocket} {d d' : Device Chip H} (fuel : Nat)
      (buf buf' : List U8) (r : Res (NbError (UdpSocketError E)) (Nat × SockAddr)) :
      UdpSoundRun sched faults n u0 c0 log got u d.bus →
      Device.udpReceive (Chip.dev sched faults).bus fuel u (buf, d) = (r, (buf', d')) → NbSound r →
      UdpSoundRun sched faults n u0 c0 log (got ++ received buf buf' r) u d'.bus
  | connect {H : Type} {log : List UdpSent} {got : List UdpGot} {u u' : UdpSocket} {d d' : Device Chip H}
      (remote : SockAddr) (r : Res (UdpSocketError E) Unit) : UdpSoundRun sched faults n u0 c0 log got u d.bus →
      Device.udpConnect (Chip.dev sched faults).bus remote (u, d) = (r, (u', d')) → UdpSound r →
      UdpSoundRun sched faults n u0 c0 log got u' d'.bus
  | setPort {H : Type} {log : List UdpSent} {got : List UdpGot} {u u' : UdpSocket} {d d' : Device Chip H} (port : U16)
      (r : Res (UdpSocketError E) Unit) : UdpSoundRun sched faults n u0 c0 log got u d.bus →
      Device.onSockBus (UdpSocket.setPort (Chip.dev sched faults).bus port) (u, d) = (r, (u', d')) →
      UdpSoundRun sched faults n u0 c0 log got u' d'.bus
  | bind {H : Type} {log : List UdpSent} {got : List UdpGot} {u u' : UdpSocket} {d d' : Device Chip H} (port : U16)
      (r : Res (UdpSocketError E) Unit) : UdpSoundRun sched faults n u0 c0 log got u d.bus →
      Device.udpBind (Chip.dev sched faults).bus port (u, d) = (r, (u', d')) →
      UdpSoundRun sched faults n u0 c0 log got u' d'.bus
  | read {log : List UdpSent} {got : List UdpGot} {u : UdpSocket} {c : Chip} (block : U8) (addr : U16) (data : List U8) :
      UdpSoundRun sched faults n u0 c0 log got u c →
      UdpSoundRun sched faults n u0 c0 log got u ((Chip.dev sched faults).bus.readFrame c block addr data).2.2
  | write {log : List UdpSent} {got : List UdpGot} {u : UdpSocket} {c : Chip} (block : U8) (addr : U16) (data : List U8) :
      UdpSoundRun sched faults n u0 c0 log got u c → Foreign n block addr data →
      UdpSoundRun sched faults n u0 c0 log got u ((Chip.dev sched faults).bus.writeFrame c block addr data).2
  | pass {log : List UdpSent} {got : List UdpGot} {u : UdpSocket} {c c' : Chip} :
      UdpSoundRun sched faults n u0 c0 log got u c → Passes c c' → UdpSoundRun sched faults n u0 c0 log got u c'

end W5500.Spec
