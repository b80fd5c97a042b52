import Verif.Spec.Trace
import Verif.Spec.Chip
import Verif.Model.Tcp
/-! # Commands and the states in which a socket takes them

The chip ignores commands that do not fit the state of the socket, without telling: OPEN (0x01) is for a closed socket,
CONNECT (0x04) for an opened TCP socket, SEND (0x20) and RECV (0x40) for a connected TCP socket or an open UDP socket. CLOSE
(0x10) is always taken. So a driver has to look at Sn_SR (offset 0x03) before it gives a command, or to bring the socket to
the state itself. -/

namespace W5500.Spec
open W5500
variable {W E H : Type}

/-- The transfer accesses offset `a` of block `b`, be it in passing: the address counts up with every byte. The chip looks at
five bits of the block only. -/
def Touches (b : U8) (a : U16) (e : Ev E) : Bool :=
  decide (e.block.setWidth 5 = b.setWidth 5) && (List.range e.data.length).any fun k => decide (e.addr + BitVec.ofNat 16 k = a)

/-- What someone who watches the bus knows of a socket. -/
inductive Stage where
  /-- nothing -/
  | unknown
  /-- the status was read, and no command was given since -/
  | seen (status : U8)
  /-- the socket was closed by command -/
  | closed
  /-- then Sn_MR was set -/
  | ready (mode : U8)
  /-- then it was opened by command -/
  | opened (mode : U8)
deriving DecidableEq, Repr

/-- One transfer further. -/
def Stage.next (b : U8) (st : Stage) (e : Ev E) : Stage :=
  match e with
  | .rd _ _ d r =>
    if Touches b 0x03 e then
      match d, r with
      | [x], .ok _ => .seen x
      | _, _ => .unknown
    else st
  | .wr b' a d r =>
    if b'.setWidth 5 = (0 : BitVec 5) then .unknown
    else if Touches b 0x00 e || Touches b 0x01 e then
      match r with
      | .ok _ =>
        if a = 0x01 ∧ d = [0x10] then .closed
        else
          match st, d with
          | .closed, [m] => if a = 0x00 then .ready m else .unknown
          | .ready m, [x] => if a = 0x01 ∧ x = 0x01 then .opened m else .unknown
          | _, _ => .unknown
      | _ => .unknown
    else st

/-- What is known after all these transfers. -/
def stage (b : U8) (evs : List (Ev E)) : Stage := evs.foldl (Stage.next b) .unknown

/-- The commands that may be given to a TCP (`p` = 1) or UDP (`p` = 2) socket of which `st` is known. -/
def Allowed (p : U8) (st : Stage) (x : U8) : Prop :=
  x = 0x10 ∨ x = 0x01 ∧ st = .ready p ∨ x = 0x04 ∧ p = 1 ∧ (st = .seen 0x13 ∨ st = .opened 1) ∨
  (x = 0x20 ∨ x = 0x40) ∧ st = .seen (if p = 1 then 0x17 else 0x22)

/-- Every transfer that writes Sn_CR of block `b` gives one command, and one that may be given. -/
def Fitting (b p : U8) (evs : List (Ev E)) : Prop :=
  ∀ before e after, evs = before ++ e :: after → e.isWrite = true → Touches b 0x01 e = true →
    ∃ x, e.addr = 0x01 ∧ e.data = [x] ∧ Allowed p (stage b before) x

/-- A call on a TCP or UDP socket; `dest`, `port` are what the UDP socket object remembers. -/
inductive SockCall where
  | tcpConnect (remote : SockAddr)
  | tcpSend (data : List U8)
  | tcpReceive (buf : List U8)
  | tcpClose
  | udpConnect (dest : Option SockAddr4) (port : U16) (remote : SockAddr)
  | udpBind (dest : Option SockAddr4) (port : U16) (localPort : U16)
  | udpSend (dest : Option SockAddr4) (port : U16) (data : List U8)
  | udpSendTo (dest : Option SockAddr4) (port : U16) (remote : SockAddr) (data : List U8)
  | udpReceive (dest : Option SockAddr4) (port : U16) (buf : List U8)
  | udpClose (dest : Option SockAddr4) (port : U16)

/-- The protocol, as in Sn_MR. -/
def SockCall.proto : SockCall → U8
  | .tcpConnect _ | .tcpSend _ | .tcpReceive _ | .tcpClose => 1
  | _ => 2

/-- The device after the call on socket `n`. -/
def SockCall.after (B : Bus W E) (fuel n : Nat) (d : Device W H) : SockCall → Device W H
  | .tcpConnect remote => (Device.tcpConnect B fuel ⟨.new (BitVec.ofNat 8 n)⟩ remote d).2
  | .tcpSend data => (Device.tcpSend B fuel ⟨.new (BitVec.ofNat 8 n)⟩ data d).2
  | .tcpReceive buf => (Device.tcpReceive B fuel ⟨.new (BitVec.ofNat 8 n)⟩ (buf, d)).2.2
  | .tcpClose => (Device.tcpClose B ⟨.new (BitVec.ofNat 8 n)⟩ d).2
  | .udpConnect dest port remote => (Device.udpConnect B remote (⟨.new (BitVec.ofNat 8 n), dest, port⟩, d)).2.2
  | .udpBind dest port localPort => (Device.udpBind B localPort (⟨.new (BitVec.ofNat 8 n), dest, port⟩, d)).2.2
  | .udpSend dest port data => (Device.udpSend B fuel ⟨.new (BitVec.ofNat 8 n), dest, port⟩ data d).2
  | .udpSendTo dest port remote data => (Device.udpSendTo B fuel remote data (⟨.new (BitVec.ofNat 8 n), dest, port⟩, d)).2.2
  | .udpReceive dest port buf => (Device.udpReceive B fuel ⟨.new (BitVec.ofNat 8 n), dest, port⟩ (buf, d)).2.2
  | .udpClose dest port => (Device.udpClose B ⟨.new (BitVec.ofNat 8 n), dest, port⟩ d).2

/-- The device after calls on several sockets. -/
def callsAfter (B : Bus W E) (fuel : Nat) (d : Device W H) (calls : List (Nat × SockCall)) : Device W H :=
  calls.foldl (fun d c => c.2.after B fuel c.1 d) d

/-! ## A chip that ignores commands -/

/-- The states in which a command is taken. -/
def takes (sr x : U8) : Bool :=
  if x = 0x10 then true
  else if x = 0x01 then decide (sr = 0x00)
  else if x = 0x04 then decide (sr = 0x13)
  else if x = 0x20 ∨ x = 0x40 then decide (sr = 0x17 ∨ sr = 0x22 ∨ sr = 0x42)
  else false

/-- The chip, with what it told the driver of the status of one socket: the value that was read last, or brought about by the
last command. -/
structure Picky where
  chip : Chip
  told : Option U8
  /-- a command was ignored although the status was what the driver had been told -/
  blame : Bool

/-- The chip of `Chip.dev`, except that socket `n` ignores commands in the wrong state. -/
def Picky.dev (n : Nat) (sched : Nat → List (Nat × Act)) (faults : Nat → Option (E × Nat)) : ByteDev Picky E where
  readByte s b a :=
    let c := s.chip.tick sched
    (c.peek b a, { s with chip := c, told := if b = BitVec.ofNat 5 (4 * n + 1) ∧ a = 0x03 then some (c.socks n).sr else s.told })
  writeByte s b a x :=
    let c := s.chip.tick sched
    if b = BitVec.ofNat 5 (4 * n + 1) ∧ a = 0x01 then
      if takes (c.socks n).sr x then { s with chip := c.poke b a x, told := some ((c.poke b a x).socks n).sr }
      else { chip := c, told := none, blame := s.blame || decide (s.told = some (c.socks n).sr) }
    else { s with chip := c.poke b a x }
  fault s := (faults s.chip.txn, { s with chip := { s.chip with txn := s.chip.txn + 1 } })

end W5500.Spec
