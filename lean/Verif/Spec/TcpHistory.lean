import Verif.Spec.Chip
import Verif.Model.Tcp
/-! # Histories of a TCP connection

What happens to socket `n` of a chip between `connect` and the moment of observation, as a relation between chip
states with the bytes accepted by `send` and delivered by `receive` on the way. -/

namespace W5500.Spec
open W5500

/-- A write frame that does not concern socket `n`: it goes to another socket, to read-only memory, or to the common
block without resetting the chip. -/
def Foreign (n : Nat) (block : U8) (addr : U16) (data : List U8) : Prop :=
  if (block.setWidth 5 : BitVec 5) = 0 then
    ∀ i (h : i < data.length), addr + BitVec.ofNat 16 i = 0 → data[i].getLsbD 7 = false
  else
    (block.setWidth 5 : BitVec 5).toNat / 4 ≠ n ∨ (block.setWidth 5 : BitVec 5).toNat % 4 = 0 ∨
      (block.setWidth 5 : BitVec 5).toNat % 4 = 3

/-- Any amount of time passes on the chip: the environment acts on the sockets in any way it can. -/
def Passes (c c' : Chip) : Prop :=
  c'.cmem = c.cmem ∧ ∀ n, ∃ acts : List Act, c'.socks n = acts.foldl Sock.act (c.socks n)

/-- `TcpRun sched faults n c acc del c'`: from `c` the chip gets to `c'`; on socket `n`, `send` accepted the bytes
`acc` and `receive` delivered the bytes `del`, both in order of the calls.

* `failedSend`, `failedReceive`: calls that did not return `Ok` (refused, bus error, still waiting, …) and did not
  change the pointer register they work on;
* `read`, `write`: any other traffic on the bus, also failing, except writes to this socket;
* `pass`: time passes;
* `past`: what happened so far may have happened with any other schedule and faults. -/
inductive TcpRun {E : Type} : (Nat → List (Nat × Act)) → (Nat → Option (E × Nat)) → Nat → Chip → List U8 → List U8 → Chip → Prop where
  | start {sched : Nat → List (Nat × Act)} {faults : Nat → Option (E × Nat)} {n : Nat} {c : Chip} : TcpRun sched faults n c [] [] c
  | send {sched : Nat → List (Nat × Act)} {faults : Nat → Option (E × Nat)} {n : Nat} {c : Chip}
      {H : Type} {acc del : List U8} {d d' : Device Chip H} (fuel : Nat) (data : List U8) (k : Nat) :
      TcpRun sched faults n c acc del d.bus →
      Device.tcpSend (Chip.dev sched faults).bus fuel ⟨Socket.new (BitVec.ofNat 8 n)⟩ data d = (.ok k, d') →
      TcpRun sched faults n c (acc ++ data.take k) del d'.bus
  | receive {sched : Nat → List (Nat × Act)} {faults : Nat → Option (E × Nat)} {n : Nat} {c : Chip}
      {H : Type} {acc del : List U8} {d d' : Device Chip H} (fuel : Nat) (buf buf' : List U8) (k : Nat) :
      TcpRun sched faults n c acc del d.bus →
      Device.tcpReceive (Chip.dev sched faults).bus fuel ⟨Socket.new (BitVec.ofNat 8 n)⟩ (buf, d) =
        (.ok k, (buf', d')) →
      TcpRun sched faults n c acc (del ++ buf'.take k) d'.bus
  | failedSend {sched : Nat → List (Nat × Act)} {faults : Nat → Option (E × Nat)} {n : Nat} {c : Chip}
      {H : Type} {acc del : List U8} {d d' : Device Chip H} (fuel : Nat) (data : List U8)
      (r : Res (TcpSocketError E) Nat) :
      TcpRun sched faults n c acc del d.bus →
      Device.tcpSend (Chip.dev sched faults).bus fuel ⟨Socket.new (BitVec.ofNat 8 n)⟩ data d = (r, d') →
      (∀ k, r ≠ .ok k) → (d'.bus.socks n).txWr = (d.bus.socks n).txWr →
      TcpRun sched faults n c acc del d'.bus
  | failedReceive {sched : Nat → List (Nat × Act)} {faults : Nat → Option (E × Nat)} {n : Nat} {c : Chip}
      {H : Type} {acc del : List U8} {d d' : Device Chip H} (fuel : Nat) (buf buf' : List U8)
      (r : Res (TcpSocketError E) Nat) :
      TcpRun sched faults n c acc del d.bus →
      Device.tcpReceive (Chip.dev sched faults).bus fuel ⟨Socket.new (BitVec.ofNat 8 n)⟩ (buf, d) = (r, (buf', d')) →
      (∀ k, r ≠ .ok k) → (d'.bus.socks n).rxRdReg = (d.bus.socks n).rxRdReg →
      TcpRun sched faults n c acc del d'.bus
  | read {sched : Nat → List (Nat × Act)} {faults : Nat → Option (E × Nat)} {n : Nat} {c : Chip}
      {acc del : List U8} {c1 : Chip} (block : U8) (addr : U16) (data : List U8) :
      TcpRun sched faults n c acc del c1 →
      TcpRun sched faults n c acc del ((Chip.dev sched faults).bus.readFrame c1 block addr data).2.2
  | write {sched : Nat → List (Nat × Act)} {faults : Nat → Option (E × Nat)} {n : Nat} {c : Chip}
      {acc del : List U8} {c1 : Chip} (block : U8) (addr : U16) (data : List U8) :
      TcpRun sched faults n c acc del c1 → Foreign n block addr data →
      TcpRun sched faults n c acc del ((Chip.dev sched faults).bus.writeFrame c1 block addr data).2
  | pass {sched : Nat → List (Nat × Act)} {faults : Nat → Option (E × Nat)} {n : Nat} {c : Chip} {acc del : List U8} {c1 c2 : Chip} :
      TcpRun sched faults n c acc del c1 → Passes c1 c2 → TcpRun sched faults n c acc del c2
  | past {sched sched' : Nat → List (Nat × Act)} {faults faults' : Nat → Option (E × Nat)} {n : Nat} {c c' : Chip} {acc del : List U8} :
      TcpRun sched' faults' n c acc del c' → TcpRun sched faults n c acc del c'

end W5500.Spec
