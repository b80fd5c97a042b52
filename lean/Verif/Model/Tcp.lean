import Verif.Model.Udp
/-! # TCP client — /repo/src/tcp.rs -/

namespace W5500
open socketn

/-- `TcpSocketError` — /repo/src/tcp.rs:17-23 -/
inductive TcpSocketError (E : Type) where
  | noMoreSockets
  | notConnected
  | unsupportedAddress
  | other (e : E)
  | unsupportedMode
deriving DecidableEq, Repr

/-- embedded-nal `TcpErrorKind`, as far as used. -/
inductive TcpErrorKind where
  | pipeClosed | other
deriving DecidableEq, Repr

/-- `TcpError::kind` — /repo/src/tcp.rs:25-32 -/
def TcpSocketError.kind {E : Type} : TcpSocketError E → TcpErrorKind
  | .notConnected => .pipeClosed
  | _ => .other

/-- `TcpSocket` — /repo/src/tcp.rs:42-44 -/
structure TcpSocket where
  socket : Socket
deriving DecidableEq, Repr

namespace TcpSocket
variable {W E : Type}

/-- `reopen` — /repo/src/tcp.rs:47-59 -/
def reopen (B : Bus W E) (self : TcpSocket) : M W (TcpSocketError E) Unit := M.mapErr .other do
  self.socket.command B .close
  self.socket.resetInterrupt B .all
  self.socket.setMode B .tcp
  self.socket.setInterruptMask B (Interrupt.sendOk.toU8 &&& Interrupt.timeout.toU8)
  self.socket.command B .open

/-- `open` — /repo/src/tcp.rs:60-77 -/
def «open» (B : Bus W E) (self : TcpSocket) (localPort : U16) : M W (TcpSocketError E) Unit :=
  M.mapErr .other do
    self.socket.command B .close
    self.socket.resetInterrupt B .all
    self.socket.setSourcePort B localPort
    self.socket.setMode B .tcp
    self.socket.setInterruptMask B (Interrupt.sendOk.toU8 &&& Interrupt.timeout.toU8)
    self.socket.command B .open

/-- `socket_close` — /repo/src/tcp.rs:79-83 -/
def socketClose (B : Bus W E) (self : TcpSocket) : M W (TcpSocketError E) Unit := M.mapErr .other do
  self.socket.setMode B .closed
  self.socket.command B .close

/-- The final loop of `socket_connect` — /repo/src/tcp.rs:116-137 -/
def connectLoop (B : Bus W E) (self : TcpSocket) : Nat → M W (TcpSocketError E) Unit
  | 0 => M.outOfFuel
  | fuel + 1 => do
    let st ← M.mapErr .other (self.socket.getStatus B)
    match Status.tryFrom st with
    | some .established => pure ()
    | some .closed =>
      self.socketClose B
      self.reopen B
    | _ => connectLoop B self fuel

/-- `socket_connect` — /repo/src/tcp.rs:85-138 -/
def socketConnect (B : Bus W E) (fuel : Nat) (self : TcpSocket) (remote : SockAddr4) :
    M W (TcpSocketError E) Unit := do
  let st ← M.mapErr .other (self.socket.getStatus B)
  match Status.tryFrom st with
  | some .init => pure ()
  | none | some .macRaw | some .udp => M.throw .unsupportedMode
  | some _ =>
    self.socketClose B
    self.reopen B
  M.mapErr .other (self.socket.setDestinationIp B remote.ip)
  M.mapErr .other (self.socket.setDestinationPort B remote.port)
  M.mapErr .other (self.socket.command B .connect)
  connectLoop B self fuel

/-- `socket_is_connected` — /repo/src/tcp.rs:140-142 -/
def socketIsConnected (B : Bus W E) (self : TcpSocket) : M W (TcpSocketError E) Bool := do
  let st ← M.mapErr .other (self.socket.getStatus B)
  pure (decide (st = Status.established.toU8))

/-- `socket_send` — /repo/src/tcp.rs:144-178 -/
def socketSend (B : Bus W E) (fuel : Nat) (self : TcpSocket) (data : List U8) :
    M W (TcpSocketError E) Nat := do
  if !(← self.socketIsConnected B) then
    M.throw .notConnected
  else
    let maxSize := (← M.mapErr .other (self.socket.getTxFreeSize B)).toNat
    let writeData ← if data.length < maxSize then pure data else M.sliceTo data maxSize
    let writePointer ← M.mapErr .other (self.socket.getTxWritePointer B)
    M.mapErr .other (B.write self.socket.txBuffer writePointer writeData)
    M.mapErr .other
      (self.socket.setTxWritePointer B (writePointer + BitVec.ofNat 16 writeData.length))
    M.mapErr .other (self.socket.command B .send)
    M.mapErr .other (RawDevice.waitSendOk B self.socket fuel)
    M.mapErr .other (self.socket.resetInterrupt B .sendOk)
    pure writeData.length

/-- `socket_receive` — /repo/src/tcp.rs:180-217. State: the caller's buffer and the bus. -/
def socketReceive (B : Bus W E) (fuel : Nat) (self : TcpSocket) :
    M (List U8 × W) (TcpSocketError E) Nat := do
  if !(← M.onSnd (self.socketIsConnected B)) then
    M.throw .notConnected
  else if !(← M.onSnd (M.mapErr .other (self.socket.hasInterrupt B .receive))) then
    pure 0
  else
    let rxSize := (← M.onSnd (M.mapErr .other (self.socket.getReceiveSize B fuel))).toNat
    let dataLen := (← M.get).1.length
    let readLen := if rxSize > dataLen then dataLen else rxSize
    let readPointer ← M.onSnd (M.mapErr .other (self.socket.getRxReadPointer B))
    M.withPrefix readLen (M.mapErr .other (B.readSlice self.socket.rxBuffer readPointer))
    M.onSnd (M.mapErr .other
      (self.socket.setRxReadPointer B (readPointer + BitVec.ofNat 16 readLen)))
    M.onSnd (M.mapErr .other (self.socket.command B .receive))
    M.onSnd (M.mapErr .other (self.socket.resetInterrupt B .receive))
    pure readLen

end TcpSocket

/-! ## `TcpClientStack` for `Device` — /repo/src/tcp.rs:220-268 -/

namespace Device
variable {W E H : Type}

/-- `TcpClientStack::socket` — /repo/src/tcp.rs:224-229 -/
def tcpSocket : M (Device W H) (TcpSocketError E) TcpSocket := do
  match ← takeSocket with
  | some s => pure { socket := s }
  | none => M.throw .noMoreSockets

/-- `TcpClientStack::connect` — /repo/src/tcp.rs:231-244. `nb::Error::Other` is the only error kind
TCP operations produce, so the error type is left unwrapped. -/
def tcpConnect (B : Bus W E) (fuel : Nat) (socket : TcpSocket) (remote : SockAddr) :
    M (Device W H) (TcpSocketError E) Unit :=
  match remote with
  | .v6 _ _ => M.throw .unsupportedAddress
  | .v4 remote => onBus do
    socket.open B (49849 + socket.socket.index.setWidth 16)
    socket.socketConnect B fuel remote

/-- `TcpClientStack::send` — /repo/src/tcp.rs:246-253 -/
def tcpSend (B : Bus W E) (fuel : Nat) (socket : TcpSocket) (buffer : List U8) :
    M (Device W H) (TcpSocketError E) Nat :=
  onBus (socket.socketSend B fuel buffer)

/-- `TcpClientStack::receive` — /repo/src/tcp.rs:255-261 -/
def tcpReceive (B : Bus W E) (fuel : Nat) (socket : TcpSocket) :
    M (List U8 × Device W H) (TcpSocketError E) Nat :=
  onSockBus (socket.socketReceive B fuel)

/-- `TcpClientStack::close` — /repo/src/tcp.rs:263-267 -/
def tcpClose (B : Bus W E) (socket : TcpSocket) : M (Device W H) (TcpSocketError E) Unit := do
  onBus (socket.socketClose B)
  releaseSocket socket.socket

end Device
end W5500
