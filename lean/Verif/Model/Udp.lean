import Verif.Model.Device
/-! # UDP — /repo/src/udp.rs -/

namespace W5500
open socketn

/-- `UdpHeader` — /repo/src/udp.rs:28-37 -/
structure UdpHeader where
  origin : SockAddr4
  len : Nat
deriving DecidableEq, Repr

/-- `From<[u8; 8]> for UdpHeader` and `from_array` — /repo/src/udp.rs:39-59. The argument type fixes
the length to 8; other lists have no Rust counterpart. -/
def UdpHeader.fromArray : List U8 → Option UdpHeader
  | [h0, h1, h2, h3, h4, h5, h6, h7] =>
    some { origin := ⟨⟨h0, h1, h2, h3⟩, fromBeBytes h4 h5⟩, len := (fromBeBytes h6 h7).toNat }
  | _ => none

/-- `UdpSocketError` — /repo/src/udp.rs:417-441 -/
inductive UdpSocketError (E : Type) where
  | noMoreSockets
  | unsupportedAddress
  | unrecognisedStatus
  | bufferOverflow
  | bufferFull
  | destinationNotSet
  | socketNotOpen
  | other (e : E)
  | writeTimeout
deriving DecidableEq, Repr

/-- `NbError` — /repo/src/udp.rs:450-453 — and `nb::Error`, to which it is converted constructor by
constructor (467-474). -/
inductive NbError (ε : Type) where
  | other (e : ε)
  | wouldBlock
deriving DecidableEq, Repr

/-- `From<E> for NbError<UdpSocketError<E>>` — /repo/src/udp.rs:461-465 -/
def NbError.ofBus {E : Type} (e : E) : NbError (UdpSocketError E) := .other (.other e)

/-- `UdpSocket` — /repo/src/udp.rs:63-70 -/
structure UdpSocket where
  socket : Socket
  destination : Option SockAddr4
  port : U16
deriving DecidableEq, Repr

namespace UdpSocket
variable {W E : Type}

/-- `UdpSocket::new` — /repo/src/udp.rs:73-83 -/
def new (socket : Socket) : UdpSocket :=
  { socket := socket, destination := none, port := 49849 + socket.index.setWidth 16 }

/-- `open` — /repo/src/udp.rs:85-97 -/
def «open» (B : Bus W E) (self : UdpSocket) : M W E Unit := do
  self.socket.command B .close
  self.socket.resetInterrupt B .all
  self.socket.setSourcePort B self.port
  self.socket.setMode B .udp
  self.socket.setInterruptMask B (Interrupt.sendOk.toU8 &&& Interrupt.timeout.toU8)
  self.socket.command B .open

/-- `get_port` — /repo/src/udp.rs:100-102 -/
def getPort (self : UdpSocket) : U16 := self.port

/-- `index` — /repo/src/udp.rs:410-412 -/
def getIndex (self : UdpSocket) : U8 := self.socket.index

/-- `set_port` — /repo/src/udp.rs:104-113. State: the socket object and the bus. -/
def setPort (B : Bus W E) (localPort : U16) : M (UdpSocket × W) (UdpSocketError E) Unit := do
  M.modify fun s => ({ s.1 with port := localPort }, s.2)
  let self := (← M.get).1
  M.mapErr .other (M.onSnd (self.socket.setSourcePort B self.port))

/-- `set_destination` — /repo/src/udp.rs:115-139 -/
def setDestination (B : Bus W E) (remote : SockAddr4) :
    M (UdpSocket × W) (UdpSocketError E) Unit := do
  let self := (← M.get).1
  let differs : Bool := match self.destination with
    | some dest => decide (dest ≠ remote)
    | none => true
  if differs then
    M.mapErr .other (M.onSnd (self.socket.setDestinationIp B remote.ip))
    M.mapErr .other (M.onSnd (self.socket.setDestinationPort B remote.port))
    M.modify fun s => ({ s.1 with destination := some remote }, s.2)

/-- `match Status::try_from(self.socket.get_status(bus)?)` expecting `Status::Udp` —
/repo/src/udp.rs:146-150, 205-209, 330-334 -/
def checkStatus (B : Bus W E) (self : UdpSocket) : M W (NbError (UdpSocketError E)) Unit := do
  let st ← M.mapErr NbError.ofBus (self.socket.getStatus B)
  match Status.tryFrom st with
  | some .udp => pure ()
  | some _ => M.throw (.other .socketNotOpen)
  | none => M.throw (.other .unrecognisedStatus)

/-- `try_flush_tx` — /repo/src/udp.rs:266-296 -/
def tryFlushTx (B : Bus W E) (self : UdpSocket) : M W (NbError (UdpSocketError E)) Unit := do
  let txRead ← M.mapErr NbError.ofBus (self.socket.getTxReadPointer B)
  let txWrite ← M.mapErr NbError.ofBus (self.socket.getTxWritePointer B)
  if txRead = txWrite then
    if ← M.mapErr NbError.ofBus (self.socket.hasInterrupt B .sendOk) then
      M.mapErr NbError.ofBus (self.socket.resetInterrupt B .sendOk)
    else if ← M.mapErr NbError.ofBus (self.socket.hasInterrupt B .timeout) then
      M.mapErr NbError.ofBus (self.socket.resetInterrupt B .timeout)
      M.throw (.other .writeTimeout)
    else pure ()
  else M.throw .wouldBlock

/-- The loop of `block_send_command` — /repo/src/udp.rs:258-263 -/
def flushLoop (B : Bus W E) (self : UdpSocket) : Nat → M W (NbError (UdpSocketError E)) Unit
  | 0 => M.outOfFuel
  | fuel + 1 => fun w =>
    match tryFlushTx B self w with
    | (.err .wouldBlock, w') => flushLoop B self fuel w'
    | r => r

/-- `block_send_command` — /repo/src/udp.rs:251-264 -/
def blockSendCommand (B : Bus W E) (fuel : Nat) (self : UdpSocket) :
    M W (NbError (UdpSocketError E)) Unit := do
  M.mapErr NbError.ofBus (self.socket.command B .send)
  flushLoop B self fuel

/-- `socket_send` — /repo/src/udp.rs:200-248 -/
def socketSend (B : Bus W E) (fuel : Nat) (self : UdpSocket) (sendBuffer : List U8) :
    M W (NbError (UdpSocketError E)) Nat := do
  checkStatus B self
  if self.destination.isNone then
    M.throw (.other .destinationNotSet)
  else
    let freeSize ← M.mapErr NbError.ofBus (self.socket.getTxFreeSize B)
    if freeSize = 0 then
      M.throw (.other .bufferFull)
    else
      let writeData ←
        if sendBuffer.length < freeSize.toNat then pure sendBuffer
        else M.sliceTo sendBuffer freeSize.toNat
      let writePointer ← M.mapErr NbError.ofBus (self.socket.getTxWritePointer B)
      M.mapErr NbError.ofBus (B.write self.socket.txBuffer writePointer writeData)
      let newWritePointer := writePointer + BitVec.ofNat 16 writeData.length
      M.mapErr NbError.ofBus (self.socket.setTxWritePointer B newWritePointer)
      blockSendCommand B fuel self
      pure writeData.length

/-- The `while` loop of `socket_send_all` — /repo/src/udp.rs:172-187 -/
def sendAllLoop (B : Bus W E) (fuel : Nat) (self : UdpSocket) (sendBuffer : List U8) :
    Nat → U16 → Nat → M W (NbError (UdpSocketError E)) Unit
  | 0, _, _ => M.outOfFuel
  | n + 1, freeSize, totalSent =>
    if totalSent = sendBuffer.length then pure ()
    else do
      let remaining ← M.sliceFrom sendBuffer totalSent
      let writeLen := min freeSize.toNat remaining.length
      let batch ← M.sliceTo remaining writeLen
      let sent ← socketSend B fuel self batch
      let freeSize ← M.mapErr NbError.ofBus (self.socket.getTxFreeSize B)
      sendAllLoop B fuel self sendBuffer n freeSize (totalSent + sent)

/-- `socket_send_all` — /repo/src/udp.rs:141-190 -/
def socketSendAll (B : Bus W E) (fuel : Nat) (self : UdpSocket) (sendBuffer : List U8) :
    M W (NbError (UdpSocketError E)) Unit := do
  checkStatus B self
  if self.destination.isNone then
    M.throw (.other .destinationNotSet)
  else
    let freeSize ← M.mapErr NbError.ofBus (self.socket.getTxFreeSize B)
    if freeSize = 0 then
      M.throw (.other .bufferFull)
    else
      sendAllLoop B fuel self sendBuffer fuel freeSize 0

/-- `socket_send_to` — /repo/src/udp.rs:304-313 -/
def socketSendTo (B : Bus W E) (fuel : Nat) (remote : SockAddr4) (sendBuffer : List U8) :
    M (UdpSocket × W) (NbError (UdpSocketError E)) Unit := do
  M.mapErr NbError.other (setDestination B remote)
  let self := (← M.get).1
  M.onSnd (socketSendAll B fuel self sendBuffer)

/-- `socket_receive` — /repo/src/udp.rs:325-397. State: the caller's buffer and the bus. -/
def socketReceive (B : Bus W E) (fuel : Nat) (self : UdpSocket) :
    M (List U8 × W) (NbError (UdpSocketError E)) (Nat × UdpHeader) := do
  M.onSnd (checkStatus B self)
  if !(← M.onSnd (M.mapErr NbError.ofBus (self.socket.hasInterrupt B .receive))) then
    M.throw .wouldBlock
  else
    let rxSize := (← M.onSnd (M.mapErr NbError.ofBus (self.socket.getReceiveSize B fuel))).toNat
    if rxSize = 0 then
      M.throw .wouldBlock
    else
      let bufferSize := (← M.get).1.length
      if bufferSize = 0 then
        M.throw (.other .bufferOverflow)
      else
        let readMaxSize := min rxSize bufferSize
        let readPointer ← M.onSnd (M.mapErr NbError.ofBus (self.socket.getRxReadPointer B))
        let header ← M.onSnd (M.mapErr NbError.ofBus
          (B.readBuf self.socket.rxBuffer readPointer [0, 0, 0, 0, 0, 0, 0, 0]))
        match UdpHeader.fromArray header with
        | none => M.panic
        | some udpHeader =>
          let dataReadPointer := readPointer + 8
          let readLength := max readMaxSize udpHeader.len
          M.withPrefix readLength
            (M.mapErr NbError.ofBus (B.readSlice self.socket.rxBuffer dataReadPointer))
          M.onSnd (M.mapErr NbError.ofBus
            (self.socket.setRxReadPointer B (readPointer + BitVec.ofNat 16 rxSize)))
          M.onSnd (M.mapErr NbError.ofBus (self.socket.command B .receive))
          M.onSnd (M.mapErr NbError.ofBus (self.socket.resetInterrupt B .receive))
          pure (readLength, udpHeader)

/-- `socket_close` — /repo/src/udp.rs:399-406 -/
def socketClose (B : Bus W E) (self : UdpSocket) : M W (UdpSocketError E) Unit := M.mapErr .other do
  self.socket.setMode B .closed
  self.socket.command B .close

end UdpSocket

/-! ## `UdpClientStack` / `UdpFullStack` for `Device` — /repo/src/udp.rs:476-551 -/

namespace Device
variable {W E H : Type}

/-- Access to `&mut UdpSocket` and `&mut self.bus` at the same time. -/
def onSockBus {S ε α : Type} (m : M (S × W) ε α) : M (S × Device W H) ε α :=
  M.zoom (fun s => (s.1, s.2.bus)) (fun t s => (t.1, { s.2 with bus := t.2 })) m

/-- `UdpClientStack::socket` — /repo/src/udp.rs:484-490 -/
def udpSocket : M (Device W H) (UdpSocketError E) UdpSocket := do
  match ← takeSocket with
  | some s => pure (UdpSocket.new s)
  | none => M.throw .noMoreSockets

/-- `UdpClientStack::connect` — /repo/src/udp.rs:492-503 -/
def udpConnect (B : Bus W E) (remote : SockAddr) :
    M (UdpSocket × Device W H) (UdpSocketError E) Unit :=
  match remote with
  | .v6 _ _ => M.throw .unsupportedAddress
  | .v4 remote => onSockBus do
    let self := (← M.get).1
    M.mapErr .other (M.onSnd (self.open B))
    UdpSocket.setDestination B remote

/-- `UdpClientStack::send` — /repo/src/udp.rs:505-508 -/
def udpSend (B : Bus W E) (fuel : Nat) (socket : UdpSocket) (buffer : List U8) :
    M (Device W H) (NbError (UdpSocketError E)) Unit :=
  onBus (socket.socketSendAll B fuel buffer)

/-- `UdpClientStack::receive` — /repo/src/udp.rs:510-518 -/
def udpReceive (B : Bus W E) (fuel : Nat) (socket : UdpSocket) :
    M (List U8 × Device W H) (NbError (UdpSocketError E)) (Nat × SockAddr) := onSockBus do
  let (received, header) ← socket.socketReceive B fuel
  pure (received, .v4 header.origin)

/-- `UdpClientStack::close` — /repo/src/udp.rs:520-524 -/
def udpClose (B : Bus W E) (socket : UdpSocket) : M (Device W H) (UdpSocketError E) Unit := do
  onBus (socket.socketClose B)
  releaseSocket socket.socket

/-- `UdpFullStack::bind` — /repo/src/udp.rs:532-536 -/
def udpBind (B : Bus W E) (localPort : U16) :
    M (UdpSocket × Device W H) (UdpSocketError E) Unit := onSockBus do
  UdpSocket.setPort B localPort
  let self := (← M.get).1
  M.mapErr .other (M.onSnd (self.open B))

/-- `UdpFullStack::send_to` — /repo/src/udp.rs:538-550 -/
def udpSendTo (B : Bus W E) (fuel : Nat) (remote : SockAddr) (buffer : List U8) :
    M (UdpSocket × Device W H) (NbError (UdpSocketError E)) Unit :=
  match remote with
  | .v6 _ _ => M.throw (.other .unsupportedAddress)
  | .v4 remote => onSockBus (UdpSocket.socketSendTo B fuel remote buffer)

end Device
end W5500
