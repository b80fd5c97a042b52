import Verif.Spec.Datasheet
/-! # C87 Registers, commands, interrupts and modes are numbered as in the datasheet

Also those the driver itself does not use at present: they are public (`register`, `socketn`) or reachable through the public
enums. -/

namespace W5500.Props
open W5500 W5500.Spec

/-- Registers of the common block in the datasheet: offset and width in bytes. MR, GAR, SUBR, SHAR, SIPR, INTLEVEL, SIMR, RTR, RCR,
PHYCFGR, VERSIONR. -/
def commonMap : List (Nat × Nat) :=
  [(0x00, 1), (0x01, 4), (0x05, 4), (0x09, 6), (0x0F, 4), (0x13, 2), (0x18, 1), (0x19, 2), (0x1B, 1), (0x2E, 1), (0x39, 1)]

/-- Registers of a socket. Sn_MR, Sn_CR, Sn_IR, Sn_SR, Sn_PORT, Sn_DIPR, Sn_DPORT, Sn_RXBUF_SIZE, Sn_TXBUF_SIZE, Sn_TX_FSR, Sn_TX_RD,
Sn_TX_WR, Sn_RX_RSR, Sn_RX_RD, Sn_IMR. -/
def socketMap : List (Nat × Nat) :=
  [(0x00, 1), (0x01, 1), (0x02, 1), (0x03, 1), (0x04, 2), (0x0C, 4), (0x10, 2), (0x1E, 1), (0x1F, 1), (0x20, 2), (0x22, 2),
   (0x24, 2), (0x26, 2), (0x28, 2), (0x2C, 1)]

/-- No two registers overlap. -/
def Disjoint (l : List (Nat × Nat)) : Prop := l.Pairwise fun p q => p.1 + p.2 ≤ q.1

instance (l : List (Nat × Nat)) : Decidable (Disjoint l) := inferInstanceAs (Decidable (l.Pairwise _))

/-- C87, addresses: the constants are the offsets of the datasheet, in this order, and registers do not overlap. -/
theorem C87_addresses :
    [common.MODE, common.GATEWAY, common.SUBNET_MASK, common.MAC, common.IP, common.INTERRUPT_TIMER, common.SOCKET_INTERRUPT_MASK,
      common.RETRY_TIME, common.RETRY_COUNT, common.PHY_CONFIG, common.VERSION].map BitVec.toNat = commonMap.map Prod.fst ∧
    [socketn.MODE, socketn.COMMAND, socketn.INTERRUPT, socketn.STATUS, socketn.SOURCE_PORT, socketn.DESTINATION_IP,
      socketn.DESTINATION_PORT, socketn.RXBUF_SIZE, socketn.TXBUF_SIZE, socketn.TX_FREE_SIZE, socketn.TX_DATA_READ_POINTER,
      socketn.TX_DATA_WRITE_POINTER, socketn.RECEIVED_SIZE, socketn.RX_DATA_READ_POINTER, socketn.INTERRUPT_MASK].map BitVec.toNat =
      socketMap.map Prod.fst ∧
    Disjoint commonMap ∧ Disjoint socketMap := by
  decide

/-- The bit of an interrupt in Sn_IR. -/
def irBit : socketn.Interrupt → Option Nat
  | .connect => some 0
  | .disconnect => some 1
  | .receive => some 2
  | .timeout => some 3
  | .sendOk => some 4
  | .all => none

/-- C87, interrupts: each one is its bit of Sn_IR, and `All` is every bit. -/
theorem C87_interrupts (i : socketn.Interrupt) (k : Nat) (hk : k < 8) :
    i.toU8.getLsbD k = match irBit i with
      | some b => decide (k = b)
      | none => true := by
  have : k = 0 ∨ k = 1 ∨ k = 2 ∨ k = 3 ∨ k = 4 ∨ k = 5 ∨ k = 6 ∨ k = 7 := by omega
  rcases this with rfl | rfl | rfl | rfl | rfl | rfl | rfl | rfl <;> cases i <;> decide

/-- Sn_CR. -/
def commandCode : socketn.Command → Nat
  | .open => 0x01
  | .listen => 0x02
  | .connect => 0x04
  | .discon => 0x08
  | .close => 0x10
  | .send => 0x20
  | .receive => 0x40

/-- Sn_MR[3:0]. -/
def protocolCode : socketn.Protocol → Nat
  | .closed => 0
  | .tcp => 1
  | .udp => 2
  | .macRaw => 4

/-- C87, commands and protocols: as in the datasheet, and all different. -/
theorem C87_commands (c c' : socketn.Command) (p p' : socketn.Protocol) :
    c.toU8.toNat = commandCode c ∧ (c.toU8 = c'.toU8 → c = c') ∧
    p.toU8.toNat = protocolCode p ∧ (p.toU8 = p'.toU8 → p = p') := by
  refine ⟨by cases c <;> rfl, ?_, by cases p <;> rfl, ?_⟩
  · cases c <;> cases c' <;> decide
  · cases p <;> cases p' <;> decide

/-- C87, status codes: as in the datasheet. -/
theorem C87_status (s : socketn.Status) : (s.toU8, s) ∈ statusTable := by
  cases s <;> decide

/-- C87, PHY operation modes: `u8::from` puts the code into OPMDC (bits 5 to 3) and nothing elsewhere, and `operation_mode` reads it
back. -/
theorem C87_phy (m : PhyOperationMode) :
    opmdc (m.toU8.toNat / 8) = some m ∧ m.toU8.toNat % 8 = 0 ∧ (PhyConfig.ofU8 m.toU8).operationMode = some m := by
  cases m <;> decide

/-- Some of the values. -/
example : socketn.Interrupt.receive.toU8.getLsbD 2 = true ∧ socketn.Interrupt.receive.toU8.getLsbD 1 = false ∧
    socketn.Command.receive.toU8 = 0x40 ∧ PhyOperationMode.powerDown.toU8 = 0x30 ∧
    (PhyConfig.ofU8 0xB7).operationMode = some .powerDown := by decide

end W5500.Props
