import Verif.Spec.Trace
/-! # What an error has to be based on

For each error, what an observer of the bus must have seen at the end of the call that returned it. `b` is the register
block of the socket. Offsets: 0x02 Sn_IR, 0x03 Sn_SR, 0x20 Sn_TX_FSR, 0x26 Sn_RX_RSR. -/

namespace W5500.Spec
open W5500

/-- The values of Sn_SR named in the datasheet. -/
def statusCodes : List U8 := [0x00, 0x13, 0x14, 0x15, 0x16, 0x17, 0x18, 0x1A, 0x1B, 0x1C, 0x1D, 0x22, 0x42]

/-- The last transfer was a successful read of one byte, and it brought a byte satisfying `P`. -/
def Read1 {E : Type} (evs : List (Ev E)) (b : U8) (a : U16) (P : U8 → Prop) : Prop :=
  ∃ x, [.rd b a [x] (.ok ())] <:+ evs ∧ P x

/-- The last two transfers were reads of Sn_RX_RSR that brought the same value, satisfying `P`. -/
def ReadSize {E : Type} (evs : List (Ev E)) (b : U8) (P : Nat → Prop) : Prop :=
  ∃ x y : U8, [.rd b 0x26 [x, y] (.ok ()), .rd b 0x26 [x, y] (.ok ())] <:+ evs ∧ P (x.toNat * 256 + y.toNat)

/-- The last transfer failed with `e`. -/
def Failed {E : Type} (evs : List (Ev E)) (e : E) : Prop := ∃ last, [last] <:+ evs ∧ last.res = .err e

/-- The evidence for an error of a TCP `connect`: the socket is not in a state a TCP socket can be in. -/
def TcpConnectReason {E : Type} (b : U8) (evs : List (Ev E)) : TcpSocketError E → Prop
  | .unsupportedMode => Read1 evs b 0x03 fun x => x ∉ statusCodes ∨ x = 0x22 ∨ x = 0x42
  | .other e => Failed evs e
  | _ => False

/-- The evidence for an error of a TCP `send` or `receive`. -/
def TcpDataReason {E : Type} (b : U8) (evs : List (Ev E)) : TcpSocketError E → Prop
  | .notConnected => Read1 evs b 0x03 (· ≠ 0x17)
  | .other e => Failed evs e
  | _ => False

/-- The evidence for an error of a UDP send on a socket with destination `dst`. A transmission timeout is reported when
everything written has been read by the chip (Sn_TX_RD, 0x22, and Sn_TX_WR, 0x24, agree), SENDOK was not set, TIMEOUT was
set, and TIMEOUT has been acknowledged. -/
def UdpSendReason {E : Type} (b : U8) (dst : Option SockAddr4) (evs : List (Ev E)) : NbError (UdpSocketError E) → Prop
  | .other .socketNotOpen => Read1 evs b 0x03 fun x => x ∈ statusCodes ∧ x ≠ 0x22
  | .other .unrecognisedStatus => Read1 evs b 0x03 (· ∉ statusCodes)
  | .other .destinationNotSet => dst = none ∧ Read1 evs b 0x03 (· = 0x22)
  | .other .bufferFull => [.rd b 0x20 [0, 0] (.ok ())] <:+ evs
  | .other .writeTimeout => ∃ p q x y : U8, x.getLsbD 4 = false ∧ y.getLsbD 3 = true ∧
      [.rd b 0x22 [p, q] (.ok ()), .rd b 0x24 [p, q] (.ok ()), .rd b 0x02 [x] (.ok ()), .rd b 0x02 [y] (.ok ()),
        .wr b 0x02 [0x08] (.ok ())] <:+ evs
  | .other (.other e) => Failed evs e
  | _ => False

/-- The evidence for an error of a UDP receive into a buffer of `space` bytes. -/
def UdpReceiveReason {E : Type} (b : U8) (space : Nat) (evs : List (Ev E)) : NbError (UdpSocketError E) → Prop
  | .wouldBlock => Read1 evs b 0x02 (fun x => x.getLsbD 2 = false) ∨ ReadSize evs b (· = 0)
  | .other .socketNotOpen => Read1 evs b 0x03 fun x => x ∈ statusCodes ∧ x ≠ 0x22
  | .other .unrecognisedStatus => Read1 evs b 0x03 (· ∉ statusCodes)
  | .other .bufferOverflow => space = 0 ∧ ReadSize evs b (· ≠ 0)
  | .other (.other e) => Failed evs e
  | _ => False

end W5500.Spec
