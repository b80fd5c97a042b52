import Verif.Model.Registers
import Verif.Model.Net
/-! # One hardware socket — /repo/src/socket.rs -/

namespace W5500
open socketn

/-- `Socket` — /repo/src/socket.rs:8-13 -/
structure Socket where
  index : U8
  register : U8
  txBuffer : U8
  rxBuffer : U8
deriving DecidableEq, Repr

namespace Socket
variable {W E : Type}

/-- `Socket::new` — /repo/src/socket.rs:17-35. The `u8` arithmetic cannot overflow for the indices
0..7 it is called with (/repo/src/device.rs:61, /repo/src/raw_device.rs:21,27). -/
def new (index : U8) : Socket :=
  let block := index * 4
  { index := index, register := block + 1, txBuffer := block + 2, rxBuffer := block + 3 }

/-- `set_mode` — /repo/src/socket.rs:47-55 -/
def setMode (B : Bus W E) (s : Socket) (mode : Protocol) : M W E Unit :=
  B.write s.register MODE [mode.toU8]

/-- `get_status` — /repo/src/socket.rs:57-61 -/
def getStatus (B : Bus W E) (s : Socket) : M W E U8 :=
  B.read1 s.register STATUS

/-- `reset_interrupt` — /repo/src/socket.rs:63-71 -/
def resetInterrupt (B : Bus W E) (s : Socket) (code : Interrupt) : M W E Unit :=
  B.write s.register INTERRUPT [code.toU8]

/-- `has_interrupt` — /repo/src/socket.rs:73-82 -/
def hasInterrupt (B : Bus W E) (s : Socket) (code : Interrupt) : M W E Bool := do
  let data ← B.read1 s.register INTERRUPT
  pure (decide (data &&& code.toU8 ≠ 0))

/-- `set_source_port` — /repo/src/socket.rs:84-92 -/
def setSourcePort (B : Bus W E) (s : Socket) (port : U16) : M W E Unit :=
  B.write s.register SOURCE_PORT (toBeBytes port)

/-- `set_destination_ip` — /repo/src/socket.rs:94-102 -/
def setDestinationIp (B : Bus W E) (s : Socket) (ip : Ipv4) : M W E Unit :=
  B.write s.register DESTINATION_IP ip.octets

/-- `set_destination_port` — /repo/src/socket.rs:104-112 -/
def setDestinationPort (B : Bus W E) (s : Socket) (port : U16) : M W E Unit :=
  B.write s.register DESTINATION_PORT (toBeBytes port)

/-- `get_tx_read_pointer` — /repo/src/socket.rs:114-118 -/
def getTxReadPointer (B : Bus W E) (s : Socket) : M W E U16 :=
  B.read2 s.register TX_DATA_READ_POINTER

/-- `set_tx_read_pointer` — /repo/src/socket.rs:120-128 (not called by the crate) -/
def setTxReadPointer (B : Bus W E) (s : Socket) (pointer : U16) : M W E Unit :=
  B.write s.register TX_DATA_READ_POINTER (toBeBytes pointer)

/-- `get_tx_write_pointer` — /repo/src/socket.rs:130-137 -/
def getTxWritePointer (B : Bus W E) (s : Socket) : M W E U16 :=
  B.read2 s.register TX_DATA_WRITE_POINTER

/-- `set_tx_write_pointer` — /repo/src/socket.rs:139-147 -/
def setTxWritePointer (B : Bus W E) (s : Socket) (pointer : U16) : M W E Unit :=
  B.write s.register TX_DATA_WRITE_POINTER (toBeBytes pointer)

/-- `get_rx_read_pointer` — /repo/src/socket.rs:149-153 -/
def getRxReadPointer (B : Bus W E) (s : Socket) : M W E U16 :=
  B.read2 s.register RX_DATA_READ_POINTER

/-- `set_rx_read_pointer` — /repo/src/socket.rs:155-163 -/
def setRxReadPointer (B : Bus W E) (s : Socket) (pointer : U16) : M W E Unit :=
  B.write s.register RX_DATA_READ_POINTER (toBeBytes pointer)

/-- `set_interrupt_mask` — /repo/src/socket.rs:165-173 -/
def setInterruptMask (B : Bus W E) (s : Socket) (mask : U8) : M W E Unit :=
  B.write s.register INTERRUPT_MASK [mask]

/-- `command` — /repo/src/socket.rs:175-183 -/
def command (B : Bus W E) (s : Socket) (c : Command) : M W E Unit :=
  B.write s.register COMMAND [c.toU8]

/-- `get_receive_size` — /repo/src/socket.rs:188-198. The arrays are compared after decoding; decoding
two bytes big-endian is injective, so this is the same test. -/
def getReceiveSize (B : Bus W E) (s : Socket) : Nat → M W E U16
  | 0 => M.outOfFuel
  | fuel + 1 => do
    let sample0 ← B.read2 s.register RECEIVED_SIZE
    let sample1 ← B.read2 s.register RECEIVED_SIZE
    if sample0 = sample1 then pure sample0 else getReceiveSize B s fuel

/-- `get_tx_free_size` — /repo/src/socket.rs:203-207 -/
def getTxFreeSize (B : Bus W E) (s : Socket) : M W E U16 :=
  B.read2 s.register TX_FREE_SIZE

end Socket
end W5500
