import Verif.Spec.Relate
import Verif.Spec.Chip
import Verif.Spec.Trace
/-! # What does not depend on the data sent

Two chips are *veiled* if they differ at most in the contents of the transmit memories, and so in the bytes transmitted (not
in their number). -/

namespace W5500.Spec
open W5500

/-- A packet without the contents of its data. -/
def Packet.shape (p : Packet) : List U8 × List U8 × Nat × Bool := (p.ip, p.port, p.data.length, p.delivered)

/-- Sockets that differ at most in the contents of TX memory and of what was transmitted. -/
structure Sock.Veiled (s s' : Sock) : Prop where
  mem : s.mem = s'.mem
  ir : s.ir = s'.ir
  sr : s.sr = s'.sr
  owed : s.owed = s'.owed
  txRd : s.txRd = s'.txRd
  txLimit : s.txLimit = s'.txLimit
  una : s.una = s'.una
  rxMem : s.rxMem = s'.rxMem
  rxRd : s.rxRd = s'.rxRd
  rxWr : s.rxWr = s'.rxWr
  arrived : s.arrived = s'.arrived
  sources : s.sources = s'.sources
  bases : s.bases = s'.bases
  stream : s.stream.length = s'.stream.length
  packets : s.packets.map Packet.shape = s'.packets.map Packet.shape

/-- Chips whose sockets are veiled and that are equal otherwise. -/
structure Chip.Veiled (c c' : Chip) : Prop where
  cmem : c.cmem = c'.cmem
  socks : ∀ n, (c.socks n).Veiled (c'.socks n)
  clock : c.clock = c'.clock
  txn : c.txn = c'.txn

/-- Data of the same length. -/
def SameLength (d d' : List U8) : Prop := d.length = d'.length

/-- The blocks of TX memory (the block number is sent in five bits), and the others. -/
def TxBlock (b : U8) : Prop := (b.setWidth 5).toNat % 4 = 2
def OtherBlock (b : U8) : Prop := (b.setWidth 5).toNat % 4 ≠ 2

/-- The same transfer, or two writes to the same place in `T` with the same result and related data. -/
inductive EvLike {E : Type} (T : U8 → Prop) (D : List U8 → List U8 → Prop) : Ev E → Ev E → Prop where
  | same (e : Ev E) : EvLike T D e e
  | store {b : U8} (a : U16) {d d' : List U8} (r : Res E Unit) : T b → D d d' → EvLike T D (.wr b a d r) (.wr b a d' r)

/-- Such transfers one by one. -/
inductive LogLike {E : Type} (T : U8 → Prop) (D : List U8 → List U8 → Prop) : List (Ev E) → List (Ev E) → Prop where
  | nil : LogLike T D [] []
  | snoc {l l' : List (Ev E)} {e e' : Ev E} : LogLike T D l l' → EvLike T D e e' → LogLike T D (l ++ [e]) (l' ++ [e'])

end W5500.Spec
