import Verif.Spec.Chip
import Verif.Spec.Datasheet
import Verif.Model.Socket
/-! # The register accessors of a socket

`take_socket` hands out a `Socket`, whose methods a program can call with a bus of its own. -/

namespace W5500.Spec
open W5500

/-- Methods that write a register. -/
inductive Setter where
  | mode (p : socketn.Protocol)
  | resetInterrupt (i : socketn.Interrupt)
  | sourcePort (port : U16)
  | destinationIp (ip : Ipv4)
  | destinationPort (port : U16)
  | txReadPointer (p : U16)
  | txWritePointer (p : U16)
  | rxReadPointer (p : U16)
  | interruptMask (mask : U8)
  | command (c : socketn.Command)

namespace Setter
variable {W E : Type}

/-- The method of the crate. -/
def run (B : Bus W E) (s : Socket) : Setter → M W E Unit
  | .mode p => s.setMode B p
  | .resetInterrupt i => s.resetInterrupt B i
  | .sourcePort x => s.setSourcePort B x
  | .destinationIp ip => s.setDestinationIp B ip
  | .destinationPort x => s.setDestinationPort B x
  | .txReadPointer x => s.setTxReadPointer B x
  | .txWritePointer x => s.setTxWritePointer B x
  | .rxReadPointer x => s.setRxReadPointer B x
  | .interruptMask x => s.setInterruptMask B x
  | .command c => s.command B c

/-- Sn_MR, Sn_IR, Sn_PORT, Sn_DIPR, Sn_DPORT, Sn_TX_RD, Sn_TX_WR, Sn_RX_RD, Sn_IMR, Sn_CR. -/
def offset : Setter → U16
  | .mode _ => 0x00
  | .resetInterrupt _ => 0x02
  | .sourcePort _ => 0x04
  | .destinationIp _ => 0x0C
  | .destinationPort _ => 0x10
  | .txReadPointer _ => 0x22
  | .txWritePointer _ => 0x24
  | .rxReadPointer _ => 0x28
  | .interruptMask _ => 0x2C
  | .command _ => 0x01

/-- The bytes of the register, most significant first. -/
def data : Setter → List U8
  | .mode .closed => [0]
  | .mode .tcp => [1]
  | .mode .udp => [2]
  | .mode .macRaw => [4]
  | .resetInterrupt .connect => [0x01]
  | .resetInterrupt .disconnect => [0x02]
  | .resetInterrupt .receive => [0x04]
  | .resetInterrupt .timeout => [0x08]
  | .resetInterrupt .sendOk => [0x10]
  | .resetInterrupt .all => [0xFF]
  | .sourcePort x | .destinationPort x | .txReadPointer x | .txWritePointer x | .rxReadPointer x => be x.toNat
  | .destinationIp ip => [ip.a, ip.b, ip.c, ip.d]
  | .interruptMask x => [x]
  | .command .open => [0x01]
  | .command .listen => [0x02]
  | .command .connect => [0x04]
  | .command .discon => [0x08]
  | .command .close => [0x10]
  | .command .send => [0x20]
  | .command .receive => [0x40]

/-- Registers that simply keep what is written. -/
def Keeps : Setter → Prop
  | .resetInterrupt _ | .txReadPointer _ | .command _ => False
  | _ => True

end Setter

/-- Methods that read a register (as a number). -/
inductive Getter where
  | status | txReadPointer | txWritePointer | rxReadPointer | txFreeSize

namespace Getter
variable {W E : Type}

def run (B : Bus W E) (s : Socket) : Getter → M W E Nat
  | .status => do return (← s.getStatus B).toNat
  | .txReadPointer => do return (← s.getTxReadPointer B).toNat
  | .txWritePointer => do return (← s.getTxWritePointer B).toNat
  | .rxReadPointer => do return (← s.getRxReadPointer B).toNat
  | .txFreeSize => do return (← s.getTxFreeSize B).toNat

/-- Sn_SR, Sn_TX_RD, Sn_TX_WR, Sn_RX_RD, Sn_TX_FSR. -/
def offset : Getter → U16
  | .status => 0x03
  | .txReadPointer => 0x22
  | .txWritePointer => 0x24
  | .rxReadPointer => 0x28
  | .txFreeSize => 0x20

/-- Its width in bytes. -/
def width : Getter → Nat
  | .status => 1
  | _ => 2

end Getter

/-- The number with these bytes, most significant first. -/
def bigEndian (d : List U8) : Nat := d.foldl (fun n x => n * 256 + x.toNat) 0

/-- The outcome of a call that makes one transfer with outcome `r` and then computes `x`. -/
def oneTransfer {E α W : Type} (r : Res E Unit) (x : α) (w : W) : Res E α × W :=
  match r with
  | .ok _ => (.ok x, w)
  | .err e => (.err e, w)
  | .panic => (.panic, w)
  | .fuel => (.fuel, w)

/-- The registers `m` with the bytes `d` stored from `a` on. -/
def stored (m : U16 → U8) (a : U16) (d : List U8) (b : U16) : U8 :=
  if a.toNat ≤ b.toNat then (d[b.toNat - a.toNat]?).getD (m b) else m b

end W5500.Spec
