import Verif.Spec.TcpHistory
/-! # TCP with failing transfers: which bytes may reach the peer -/

namespace W5500.Spec
open W5500

/-- No transaction fails after exactly one data byte (the three header bytes count): two-byte registers are written
completely or not at all. -/
def Whole {E : Type} (faults : Nat → Option (E × Nat)) : Prop := ∀ t e k, faults t = some (e, k) → k ≠ 4

/-- What the program knows of its `send` calls: the buffer and the result of each. -/
abbrev SendLog (E : Type) := List (List U8 × Res (TcpSocketError E) Nat)

/-- `Handed log bs`: `bs` is a possible account of the calls. A call that returned `Ok(k)` contributes the first `k` bytes of its
buffer; a refused one (NotConnected) nothing; one that failed otherwise (or did not return) nothing or an initial part of its
buffer. -/
inductive Handed {E : Type} : SendLog E → List U8 → Prop where
  | none : Handed [] []
  | ok {log : SendLog E} {bs : List U8} (data : List U8) (k : Nat) :
      Handed log bs → Handed (log ++ [(data, .ok k)]) (bs ++ data.take k)
  | lost {log : SendLog E} {bs : List U8} (data : List U8) (r : Res (TcpSocketError E) Nat) :
      Handed log bs → (∀ k, r ≠ .ok k) → Handed (log ++ [(data, r)]) bs
  | kept {log : SendLog E} {bs : List U8} (data : List U8) (r : Res (TcpSocketError E) Nat) (k : Nat) :
      Handed log bs → (∀ k, r ≠ .ok k) → r ≠ .err .notConnected → Handed (log ++ [(data, r)]) (bs ++ data.take k)

/-- The last call returned `Ok` (or there was none). -/
def lastOk {E : Type} (log : SendLog E) : Bool :=
  match log.getLast? with
  | some (_, .ok _) => true
  | some _ => false
  | none => true

/-- A history of a connection, in which calls may end in any way: `send` calls as logged, `receive` calls, any other traffic on
the bus except writes to this socket, time. -/
inductive TcpCalls {E : Type} (sched : Nat → List (Nat × Act)) (faults : Nat → Option (E × Nat)) (n : Nat) (c : Chip) :
    SendLog E → Chip → Prop where
  | start : TcpCalls sched faults n c [] c
  | send {H : Type} {log : SendLog E} {d d' : Device Chip H} (fuel : Nat) (data : List U8) (r : Res (TcpSocketError E) Nat) :
      TcpCalls sched faults n c log d.bus →
      Device.tcpSend (Chip.dev sched faults).bus fuel ⟨Socket.new (BitVec.ofNat 8 n)⟩ data d = (r, d') →
      TcpCalls sched faults n c (log ++ [(data, r)]) d'.bus
  | receive {H : Type} {log : SendLog E} {d : Device Chip H} (fuel : Nat) (buf : List U8) :
      TcpCalls sched faults n c log d.bus →
      TcpCalls sched faults n c log
        (Device.tcpReceive (Chip.dev sched faults).bus fuel ⟨Socket.new (BitVec.ofNat 8 n)⟩ (buf, d)).2.2.bus
  | read {log : SendLog E} {c1 : Chip} (block : U8) (addr : U16) (data : List U8) :
      TcpCalls sched faults n c log c1 →
      TcpCalls sched faults n c log ((Chip.dev sched faults).bus.readFrame c1 block addr data).2.2
  | write {log : SendLog E} {c1 : Chip} (block : U8) (addr : U16) (data : List U8) :
      TcpCalls sched faults n c log c1 → Foreign n block addr data →
      TcpCalls sched faults n c log ((Chip.dev sched faults).bus.writeFrame c1 block addr data).2
  | pass {log : SendLog E} {c1 c2 : Chip} :
      TcpCalls sched faults n c log c1 → Passes c1 c2 → TcpCalls sched faults n c log c2

end W5500.Spec
