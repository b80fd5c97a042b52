import Verif.Spec.Trace
import Verif.Spec.Datasheet
/-! # Which bus accesses are legitimate (from the datasheet's register map, section 4)

Offsets and widths are written out as numbers here, independently of the crate's constants. -/

namespace W5500.Spec
open W5500

/-- Socket registers the host may write: offset and width in bytes. Sn_MR, Sn_CR, Sn_IR, Sn_PORT, Sn_DIPR,
Sn_DPORT, Sn_RXBUF_SIZE, Sn_TXBUF_SIZE, Sn_TX_WR, Sn_RX_RD, Sn_IMR. (Not: Sn_SR 0x03, Sn_TX_FSR 0x20,
Sn_TX_RD 0x22, Sn_RX_RSR 0x26, Sn_RX_WR 0x2A, which are read-only.) -/
def sockWritable : List (U16 × Nat) :=
  [(0x00, 1), (0x01, 1), (0x02, 1), (0x04, 2), (0x0C, 4), (0x10, 2), (0x1E, 1), (0x1F, 1), (0x24, 2),
   (0x28, 2), (0x2C, 1)]

/-- Socket registers the host may read: Sn_IR, Sn_SR, Sn_TX_FSR, Sn_TX_RD, Sn_TX_WR, Sn_RX_RSR, Sn_RX_RD. -/
def sockReadable : List (U16 × Nat) :=
  [(0x02, 1), (0x03, 1), (0x20, 2), (0x22, 2), (0x24, 2), (0x26, 2), (0x28, 2)]

/-- Common registers written: MR, GAR, SUBR, SHAR, SIPR, SIMR, RTR, RCR. -/
def commonWritable : List (U16 × Nat) :=
  [(0x00, 1), (0x01, 4), (0x05, 4), (0x09, 6), (0x0F, 4), (0x18, 1), (0x19, 2), (0x1B, 1)]

/-- Common registers read: GAR, SUBR, SHAR, SIPR, RTR, RCR, PHYCFGR, VERSIONR. -/
def commonReadable : List (U16 × Nat) :=
  [(0x01, 4), (0x05, 4), (0x09, 6), (0x0F, 4), (0x19, 2), (0x1B, 1), (0x2E, 1), (0x39, 1)]

/-- What may be written to the registers of socket `n` that make the chip do something: Sn_MR (0x00) is closed, TCP or UDP, or,
for socket 0, MACRAW with MAC filter; Sn_CR (0x01) is OPEN, CONNECT, CLOSE, SEND or RECV (never LISTEN, DISCON, SEND_MAC or
SEND_KEEP); the buffer sizes (0x1E, 0x1F) are 0 or 16 KB. -/
def sockValue (n : Nat) (a : U16) (d : List U8) : Prop :=
  (a = 0x00 → d ∈ [[0x00], [0x01], [0x02]] ∨ n = 0 ∧ d = [0x84]) ∧
  (a = 0x01 → d ∈ [[0x01], [0x04], [0x10], [0x20], [0x40]]) ∧
  (a ∈ [(0x1E : U16), 0x1F] → d ∈ [[0x00], [0x10]])

/-- What may be written to the common registers: MR (0x00) is the reset bit alone or has neither the reset bit nor one of the
reserved bits 6, 2 and 0 set; SIMR (0x18) enables nothing or socket 0. -/
def commonValue (a : U16) (d : List U8) : Prop :=
  (a = 0x00 → ∃ x, d = [x] ∧ (x = 0x80 ∨ x &&& 0xC5 = 0)) ∧
  (a = 0x18 → d = [0] ∨ d = [1])

/-- A legitimate access to socket number `n`: its registers (direction, offset, width, value), writes to its TX
memory, reads from its RX memory. -/
def sockAccess {E : Type} (n : Nat) : Ev E → Prop
  | .wr b a d _ => (b.toNat = 4 * n + 1 ∧ (a, d.length) ∈ sockWritable ∧ sockValue n a d) ∨ b.toNat = 4 * n + 2
  | .rd b a d _ => (b.toNat = 4 * n + 1 ∧ (a, d.length) ∈ sockReadable) ∨ b.toNat = 4 * n + 3

/-- A legitimate access to the common registers. -/
def commonAccess {E : Type} : Ev E → Prop
  | .wr b a d _ => b.toNat = 0 ∧ (a, d.length) ∈ commonWritable ∧ commonValue a d
  | .rd b a d _ => b.toNat = 0 ∧ (a, d.length) ∈ commonReadable

/-- A transfer that writes nothing unheard-of: register blocks of sockets have numbers 1, 5, 9, ... -/
def repertoire {E : Type} : Ev E → Prop
  | .rd .. => True
  | .wr b a d _ => (b.toNat % 4 = 1 → sockValue (b.toNat / 4) a d) ∧ (b = 0 → commonValue a d)

/-- The SEND command of socket `n`: 0x20 written to Sn_CR. -/
def isSend {E : Type} (n : Nat) : Ev E → Prop
  | .wr b a d _ => b.toNat = 4 * n + 1 ∧ a = 0x01 ∧ d = [0x20]
  | .rd .. => False

/-- The transfers `pre` made so far end with the preparation of a transmission on socket `n`: Sn_TX_WR was
read as `p`, the payload `d` was written to TX memory at `p`, and Sn_TX_WR was set to `p + |d|`, all
successfully; or, for an empty payload, Sn_TX_WR was read and set to the same value. `P` is a condition on the
payload. -/
def Prepared {E : Type} (n : Nat) (P : List U8 → Prop) (pre : List (Ev E)) : Prop :=
  ∃ pre' r t p d, p < 65536 ∧ r.toNat = 4 * n + 1 ∧ t.toNat = 4 * n + 2 ∧
    ((P d ∧ pre = pre' ++ [.rd r 0x24 (be p) (.ok ()), .wr t (BitVec.ofNat 16 p) d (.ok ()),
        .wr r 0x24 (be ((p + d.length) % 65536)) (.ok ())]) ∨
     (P [] ∧ pre = pre' ++ [.rd r 0x24 (be p) (.ok ()), .wr r 0x24 (be p) (.ok ())]))

/-- Every SEND on socket `n` comes directly after its preparation. -/
def SendOrdered {E : Type} (n : Nat) (P : List U8 → Prop) (evs : List (Ev E)) : Prop :=
  ∀ pre e post, evs = pre ++ e :: post → isSend n e → Prepared n P pre

/-- Socket objects as the crate hands them out: `Socket::new(n)` for one of the eight sockets. -/
def IsSocket (s : Socket) (n : Nat) : Prop := n < 8 ∧ s = Socket.new (BitVec.ofNat 8 n)

end W5500.Spec
