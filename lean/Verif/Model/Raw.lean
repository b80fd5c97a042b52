import Verif.Model.Cursor
/-! # MACRAW device — /repo/src/raw_device.rs

`RawDevice` owns a bus (the threaded state) and `raw_socket`, which is always `Socket::new(0)`. -/

namespace W5500
open socketn

/-- `RawDevice` — /repo/src/raw_device.rs:6-9 (without the owned bus) -/
structure RawDevice where
  rawSocket : Socket
deriving DecidableEq, Repr

/-- `InitializeError` — /repo/src/uninitialized_device.rs:22-25 -/
inductive InitializeError (E : Type) where
  | spiError (e : E)
  | chipNotConnected
deriving DecidableEq, Repr

namespace RawDevice
variable {W E : Type}

/-- The body of `for socket_index in 1..8` — /repo/src/raw_device.rs:26-30 -/
def clearBuffers (B : Bus W E) : List U8 → M W E Unit
  | [] => pure ()
  | i :: is => do
    let socket := Socket.new i
    B.write socket.register TXBUF_SIZE [0]
    B.write socket.register RXBUF_SIZE [0]
    clearBuffers B is

/-- `RawDevice::new` — /repo/src/raw_device.rs:19-40 -/
def new (B : Bus W E) : M W (InitializeError E) RawDevice := M.mapErr .spiError do
  let rawSocket := Socket.new 0
  B.write rawSocket.register TXBUF_SIZE [16]
  B.write rawSocket.register RXBUF_SIZE [16]
  clearBuffers B [1, 2, 3, 4, 5, 6, 7]
  let mode : U8 := (1 <<< 7) ||| Protocol.macRaw.toU8
  B.write rawSocket.register MODE [mode]
  rawSocket.command B .open
  pure { rawSocket := rawSocket }

/-- `enable_interrupts` — /repo/src/raw_device.rs:49-57 -/
def enableInterrupts (B : Bus W E) (d : RawDevice) (which : U8) : M W E Unit := do
  d.rawSocket.setInterruptMask B which
  B.write COMMON common.SOCKET_INTERRUPT_MASK [1]

/-- `clear_interrupts` — /repo/src/raw_device.rs:67-70 -/
def clearInterrupts (B : Bus W E) (d : RawDevice) : M W E Unit :=
  d.rawSocket.resetInterrupt B .all

/-- `disable_interrupts` — /repo/src/raw_device.rs:74-82 -/
def disableInterrupts (B : Bus W E) (d : RawDevice) : M W E Unit := do
  B.write COMMON common.SOCKET_INTERRUPT_MASK [0]
  d.rawSocket.setInterruptMask B 0xFF

/-- `u16::saturating_sub`. -/
def saturatingSub (a b : U16) : U16 := if b.toNat ≤ a.toNat then a - b else 0

/-- `read_frame` — /repo/src/raw_device.rs:91-115. State: the caller's `frame` buffer and the bus. -/
def readFrame (B : Bus W E) (fuel : Nat) (d : RawDevice) : M (List U8 × W) E Nat := do
  let c ← M.onSnd (RxCursor.new B fuel d.rawSocket)
  if c.available = 0 then
    pure 0
  else
    let ((n, c), frameBytes) ← M.onSnd (M.withLocal [0, 0] (c.read B))
    if n ≠ 2 then
      M.panic
    else
      match frameBytes with
      | [hi, lo] =>
        let expectedFrameSize := saturatingSub (fromBeBytes hi lo) 2
        let (receivedFrameSize, c) ← c.readUpto B expectedFrameSize
        let c :=
          if receivedFrameSize.toNat < expectedFrameSize.toNat then
            (c.skip (expectedFrameSize - receivedFrameSize)).2
          else c
        M.onSnd (c.commit B)
        pure receivedFrameSize.toNat
      | _ => M.panic

/-- `while !has_interrupt(SendOk)? {}` — /repo/src/raw_device.rs:134-137 and /repo/src/tcp.rs:173 -/
def waitSendOk (B : Bus W E) (s : Socket) : Nat → M W E Unit
  | 0 => M.outOfFuel
  | fuel + 1 => do
    if ← s.hasInterrupt B .sendOk then pure () else waitSendOk B s fuel

/-- `write_frame` — /repo/src/raw_device.rs:124-140 -/
def writeFrame (B : Bus W E) (fuel : Nat) (d : RawDevice) (frame : List U8) : M W E Nat := do
  d.rawSocket.resetInterrupt B .sendOk
  let c ← TxCursor.new B d.rawSocket
  let (count, c) ← c.write B frame
  c.commit B
  waitSendOk B d.rawSocket fuel
  pure count.toNat

end RawDevice
end W5500
