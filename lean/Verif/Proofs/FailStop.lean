import Verif.Proofs.Access
/-! # Every operation is fail-stop -/

namespace W5500
variable {W E ε α H : Type} {B : Bus W E} {s : Socket}

macro "failstop" : tactic => `(tactic| repeat' failstop_core)

theorem fs_setMode (p : socketn.Protocol) : FailStop id (s.setMode (traced B) p) := .write
theorem fs_getStatus : FailStop id (s.getStatus (traced B)) := .read1
theorem fs_resetInterrupt (c : socketn.Interrupt) : FailStop id (s.resetInterrupt (traced B) c) := .write
theorem fs_hasInterrupt (c : socketn.Interrupt) : FailStop id (s.hasInterrupt (traced B) c) :=
  .bind .read1 fun _ => .pure _
theorem fs_setSourcePort (p : U16) : FailStop id (s.setSourcePort (traced B) p) := .write
theorem fs_setDestinationIp (p : Ipv4) : FailStop id (s.setDestinationIp (traced B) p) := .write
theorem fs_setDestinationPort (p : U16) : FailStop id (s.setDestinationPort (traced B) p) := .write
theorem fs_getTxReadPointer : FailStop id (s.getTxReadPointer (traced B)) := .read2
theorem fs_getTxWritePointer : FailStop id (s.getTxWritePointer (traced B)) := .read2
theorem fs_setTxWritePointer (p : U16) : FailStop id (s.setTxWritePointer (traced B) p) := .write
theorem fs_getRxReadPointer : FailStop id (s.getRxReadPointer (traced B)) := .read2
theorem fs_setRxReadPointer (p : U16) : FailStop id (s.setRxReadPointer (traced B) p) := .write
theorem fs_setInterruptMask (m : U8) : FailStop id (s.setInterruptMask (traced B) m) := .write
theorem fs_command (c : socketn.Command) : FailStop id (s.command (traced B) c) := .write
theorem fs_getTxFreeSize : FailStop id (s.getTxFreeSize (traced B)) := .read2
theorem fs_getReceiveSize (fuel : Nat) : FailStop id (s.getReceiveSize (traced B) fuel) := by
  induction fuel with
  | zero => exact .outOfFuel
  | succ k ih => unfold Socket.getReceiveSize; failstop

/-- Socket-level steps of a `FailStop` proof, then the structural ones. -/
macro "fs_step" : tactic => `(tactic| first
  | with_reducible exact fs_setMode _
  | with_reducible exact fs_getStatus
  | with_reducible exact fs_resetInterrupt _
  | with_reducible exact fs_hasInterrupt _
  | with_reducible exact fs_setSourcePort _
  | with_reducible exact fs_setDestinationIp _
  | with_reducible exact fs_setDestinationPort _
  | with_reducible exact fs_getTxReadPointer
  | with_reducible exact fs_getTxWritePointer
  | with_reducible exact fs_setTxWritePointer _
  | with_reducible exact fs_getRxReadPointer
  | with_reducible exact fs_setRxReadPointer _
  | with_reducible exact fs_setInterruptMask _
  | with_reducible exact fs_command _
  | with_reducible exact fs_getTxFreeSize
  | with_reducible exact fs_getReceiveSize _
  | failstop_core)
macro "fs" : tactic => `(tactic| repeat' fs_step)

/-! ## UDP -/
section udp
variable {u : UdpSocket}

theorem fs_udp_open : FailStop id (u.open (traced B)) := by unfold UdpSocket.open; fs
theorem fs_udp_checkStatus : FailStop NbError.ofBus (u.checkStatus (traced B)) := by
  unfold UdpSocket.checkStatus; fs
theorem fs_udp_tryFlushTx : FailStop NbError.ofBus (u.tryFlushTx (traced B)) := by
  unfold UdpSocket.tryFlushTx; fs
theorem fs_udp_flushLoop (fuel : Nat) : FailStop NbError.ofBus (u.flushLoop (traced B) fuel) := by
  induction fuel with
  | zero => exact .outOfFuel
  | succ k ih =>
    constructor; intro t
    obtain ⟨e1, h1, c1⟩ := (fs_udp_tryFlushTx (u := u) (B := B)).run t
    unfold UdpSocket.flushLoop
    split
    · rename_i heq
      rw [heq] at h1 c1
      obtain ⟨e2, h2, c2⟩ := ih.run _
      refine ⟨e1 ++ e2, by rw [h2, h1, List.append_assoc], c2.append ?_⟩
      rcases c1 with ⟨ok1, _⟩ | ⟨pre, last, he, hpre, hl⟩
      · exact ok1
      · revert hl; split <;> simp [NbError.ofBus]
    · exact ⟨e1, h1, c1⟩
theorem fs_udp_blockSendCommand (fuel : Nat) :
    FailStop NbError.ofBus (u.blockSendCommand (traced B) fuel) := by
  have := fs_udp_flushLoop (B := B) (u := u) fuel
  unfold UdpSocket.blockSendCommand; fs
theorem fs_udp_socketSend (fuel : Nat) (b : List U8) :
    FailStop NbError.ofBus (u.socketSend (traced B) fuel b) := by
  have := fs_udp_blockSendCommand (B := B) (u := u) fuel
  have := fs_udp_checkStatus (B := B) (u := u)
  unfold UdpSocket.socketSend; fs
theorem fs_udp_sendAllLoop (fuel : Nat) (b : List U8) (k : Nat) (fsz : U16) (t : Nat) :
    FailStop NbError.ofBus (u.sendAllLoop (traced B) fuel b k fsz t) := by
  induction k generalizing fsz t with
  | zero => exact .outOfFuel
  | succ k ih =>
    have := fs_udp_socketSend (B := B) (u := u) fuel
    unfold UdpSocket.sendAllLoop
    fs
    · exact this _
    · exact ih _ _
theorem fs_udp_socketSendAll (fuel : Nat) (b : List U8) :
    FailStop NbError.ofBus (u.socketSendAll (traced B) fuel b) := by
  have := fs_udp_checkStatus (B := B) (u := u)
  unfold UdpSocket.socketSendAll
  fs
  exact fs_udp_sendAllLoop _ _ _ _ _
theorem fs_udp_socketReceive (fuel : Nat) :
    FailStop NbError.ofBus (u.socketReceive (traced B) fuel) := by
  have := fs_udp_checkStatus (B := B) (u := u)
  unfold UdpSocket.socketReceive; fs
theorem fs_udp_socketClose : FailStop UdpSocketError.other (u.socketClose (traced B)) := by
  unfold UdpSocket.socketClose; fs

theorem fs_setPort (p : U16) : FailStop UdpSocketError.other (UdpSocket.setPort (traced B) p) := by
  unfold UdpSocket.setPort
  refine .bind (.noop (fun _ => rfl) (fun _ _ h => by cases h)) fun _ => ?_
  fs
theorem fs_setDestination (r : SockAddr4) :
    FailStop UdpSocketError.other (UdpSocket.setDestination (traced B) r) := by
  unfold UdpSocket.setDestination
  refine .bind .get fun s => ?_
  dsimp only
  have key : ∀ b : Bool, FailStop (ε := UdpSocketError E) UdpSocketError.other (if b = true then (do
        M.mapErr UdpSocketError.other (M.onSnd (s.1.socket.setDestinationIp (traced B) r.ip))
        M.mapErr UdpSocketError.other (M.onSnd (s.1.socket.setDestinationPort (traced B) r.port))
        M.modify (fun s => ({ s.1 with destination := some r }, s.2)) : M (UdpSocket × TW W E) _ Unit)
      else pure ()) := by
    intro b; fs
  exact key _
theorem fs_udp_socketSendTo (fuel : Nat) (r : SockAddr4) (b : List U8) :
    FailStop NbError.ofBus (UdpSocket.socketSendTo (traced B) fuel r b) := by
  unfold UdpSocket.socketSendTo
  refine .bind (.mapErr _ (fun _ => rfl) ?_ (fs_setDestination r)) fun _ => .bind .get fun s =>
    .onSnd (fs_udp_socketSendAll _ _)
  intro e x h; cases h; rfl

theorem fs_udpSocket :
    FailStop UdpSocketError.other (Device.udpSocket : M (Device (TW W E) H) (UdpSocketError E) _) := by
  unfold Device.udpSocket; fs
theorem fs_udpConnect (r : SockAddr) : FailStop UdpSocketError.other
    (Device.udpConnect (traced B) r : M (UdpSocket × Device (TW W E) H) _ _) := by
  unfold Device.udpConnect
  split
  · exact .throw _ (fun _ h => by cases h)
  · refine .onSockBus (.bind .get fun s => .bind ?_ fun _ => fs_setDestination _)
    exact .mapErr_id _ (fun _ _ h => by cases h; rfl) (.onSnd fs_udp_open)
theorem fs_udpBind (p : U16) : FailStop UdpSocketError.other
    (Device.udpBind (traced B) p : M (UdpSocket × Device (TW W E) H) _ _) := by
  unfold Device.udpBind
  refine .onSockBus (.bind (fs_setPort p) fun _ => .bind .get fun s => ?_)
  exact .mapErr_id _ (fun _ _ h => by cases h; rfl) (.onSnd fs_udp_open)
theorem fs_udpSend (fuel : Nat) (b : List U8) : FailStop NbError.ofBus
    (Device.udpSend (traced B) fuel u b : M (Device (TW W E) H) _ _) :=
  .onBus (fs_udp_socketSendAll _ _)
theorem fs_udpSendTo (fuel : Nat) (r : SockAddr) (b : List U8) : FailStop NbError.ofBus
    (Device.udpSendTo (traced B) fuel r b : M (UdpSocket × Device (TW W E) H) _ _) := by
  unfold Device.udpSendTo
  split
  · exact .throw _ (fun _ h => by cases h)
  · exact .onSockBus (fs_udp_socketSendTo _ _ _)
theorem fs_udpReceive (fuel : Nat) : FailStop NbError.ofBus
    (Device.udpReceive (traced B) fuel u : M (List U8 × Device (TW W E) H) _ _) := by
  unfold Device.udpReceive
  refine .onSockBus (.bind (fs_udp_socketReceive _) ?_)
  fs
theorem fs_udpClose : FailStop UdpSocketError.other
    (Device.udpClose (traced B) u : M (Device (TW W E) H) _ _) := by
  unfold Device.udpClose
  exact .bind (.onBus fs_udp_socketClose) fun _ => .releaseSocket _
end udp

/-! ## MACRAW -/

theorem fs_waitSendOk (fuel : Nat) : FailStop id (RawDevice.waitSendOk (traced B) s fuel) := by
  induction fuel with
  | zero => exact .outOfFuel
  | succ k ih => unfold RawDevice.waitSendOk; fs

theorem fs_rx_new (fuel : Nat) : FailStop id (RxCursor.new (traced B) fuel s) := by
  unfold RxCursor.new; fs
theorem fs_rx_read (c : RxCursor) : FailStop id (c.read (traced B)) := by
  unfold RxCursor.read; fs
theorem fs_rx_readUpto (c : RxCursor) (m : U16) : FailStop id (c.readUpto (traced B) m) := by
  have := fs_rx_read (B := B) c
  unfold RxCursor.readUpto; fs
theorem fs_rx_commit (c : RxCursor) : FailStop id (c.commit (traced B)) := by
  unfold RxCursor.commit; fs
theorem fs_tx_new : FailStop id (TxCursor.new (traced B) s) := by
  unfold TxCursor.new; fs
theorem fs_tx_write (c : TxCursor) (b : List U8) : FailStop id (c.write (traced B) b) := by
  unfold TxCursor.write; fs
theorem fs_tx_commit (c : TxCursor) : FailStop id (c.commit (traced B)) := by
  unfold TxCursor.commit; fs

theorem fs_raw_readFrame (fuel : Nat) (d : RawDevice) : FailStop id (d.readFrame (traced B) fuel) := by
  unfold RawDevice.readFrame
  refine .bind (.onSnd (fs_rx_new _)) fun c => ?_
  fs
  · exact fs_rx_read _
  · exact fs_rx_readUpto _ _
  all_goals exact fs_rx_commit _
theorem fs_raw_writeFrame (fuel : Nat) (d : RawDevice) (f : List U8) :
    FailStop id (d.writeFrame (traced B) fuel f) := by
  unfold RawDevice.writeFrame
  refine .bind (fs_resetInterrupt _) fun _ => .bind fs_tx_new fun c => .bind (fs_tx_write _ _) fun r => ?_
  exact .bind (fs_tx_commit _) fun _ => .bind (fs_waitSendOk _) fun _ => .pure _
theorem fs_raw_enable (d : RawDevice) (m : U8) : FailStop id (d.enableInterrupts (traced B) m) := by
  unfold RawDevice.enableInterrupts; fs
theorem fs_raw_clear (d : RawDevice) : FailStop id (d.clearInterrupts (traced B)) := .write
theorem fs_raw_disable (d : RawDevice) : FailStop id (d.disableInterrupts (traced B)) := by
  unfold RawDevice.disableInterrupts; fs

theorem fs_clearBuffers (l : List U8) : FailStop id (RawDevice.clearBuffers (traced B) l) := by
  induction l with
  | nil => exact .pure _
  | cons i is ih => unfold RawDevice.clearBuffers; fs
theorem fs_raw_new : FailStop InitializeError.spiError (RawDevice.new (traced B)) := by
  have := fs_clearBuffers (B := B) [1, 2, 3, 4, 5, 6, 7]
  unfold RawDevice.new; fs

/-! ## TCP -/
section tcp
variable {t : TcpSocket}

theorem fs_tcp_reopen : FailStop TcpSocketError.other (t.reopen (traced B)) := by
  unfold TcpSocket.reopen; fs
theorem fs_tcp_open (p : U16) : FailStop TcpSocketError.other (t.open (traced B) p) := by
  unfold TcpSocket.open; fs
theorem fs_tcp_socketClose : FailStop TcpSocketError.other (t.socketClose (traced B)) := by
  unfold TcpSocket.socketClose; fs
theorem fs_tcp_connectLoop (fuel : Nat) :
    FailStop TcpSocketError.other (t.connectLoop (traced B) fuel) := by
  have h1 := fs_tcp_reopen (B := B) (t := t)
  have h2 := fs_tcp_socketClose (B := B) (t := t)
  induction fuel with
  | zero => exact .outOfFuel
  | succ k ih => unfold TcpSocket.connectLoop; fs
theorem fs_tcp_socketConnect (fuel : Nat) (r : SockAddr4) :
    FailStop TcpSocketError.other (t.socketConnect (traced B) fuel r) := by
  have h1 := fs_tcp_reopen (B := B) (t := t)
  have h2 := fs_tcp_socketClose (B := B) (t := t)
  have h3 := fs_tcp_connectLoop (B := B) (t := t) fuel
  unfold TcpSocket.socketConnect; fs
theorem fs_tcp_isConnected : FailStop TcpSocketError.other (t.socketIsConnected (traced B)) := by
  unfold TcpSocket.socketIsConnected; fs
theorem fs_tcp_socketSend (fuel : Nat) (d : List U8) :
    FailStop TcpSocketError.other (t.socketSend (traced B) fuel d) := by
  have h1 := fs_tcp_isConnected (B := B) (t := t)
  have h2 := fs_waitSendOk (B := B) (s := t.socket) fuel
  unfold TcpSocket.socketSend; fs
theorem fs_tcp_socketReceive (fuel : Nat) :
    FailStop TcpSocketError.other (t.socketReceive (traced B) fuel) := by
  have h1 := fs_tcp_isConnected (B := B) (t := t)
  unfold TcpSocket.socketReceive; fs
theorem fs_tcpSocket :
    FailStop TcpSocketError.other (Device.tcpSocket : M (Device (TW W E) H) (TcpSocketError E) _) := by
  unfold Device.tcpSocket; fs
theorem fs_tcpConnect (fuel : Nat) (r : SockAddr) : FailStop TcpSocketError.other
    (Device.tcpConnect (traced B) fuel t r : M (Device (TW W E) H) _ _) := by
  unfold Device.tcpConnect
  split
  · exact .throw _ (fun _ h => by cases h)
  · exact .onBus (.bind (fs_tcp_open _) fun _ => fs_tcp_socketConnect _ _)
theorem fs_tcpSend (fuel : Nat) (d : List U8) : FailStop TcpSocketError.other
    (Device.tcpSend (traced B) fuel t d : M (Device (TW W E) H) _ _) :=
  .onBus (fs_tcp_socketSend _ _)
theorem fs_tcpReceive (fuel : Nat) : FailStop TcpSocketError.other
    (Device.tcpReceive (traced B) fuel t : M (List U8 × Device (TW W E) H) _ _) :=
  .onSockBus (fs_tcp_socketReceive _)
theorem fs_tcpClose : FailStop TcpSocketError.other
    (Device.tcpClose (traced B) t : M (Device (TW W E) H) _ _) := by
  unfold Device.tcpClose
  exact .bind (.onBus fs_tcp_socketClose) fun _ => .releaseSocket _
end tcp

/-! ## Device and initialisation -/

theorem fs_resetChip : FailStop id (resetChip (traced B)) := .write
theorem fs_setModeDev (m : Mode) : FailStop id (setMode (traced B) m) := .write
theorem fs_version : FailStop id (version (traced B)) := .read1
theorem fs_setRetryTimeout (t : RetryTime) : FailStop id (setRetryTimeout (traced B) t) := .write
theorem fs_currentRetryTimeout : FailStop id (currentRetryTimeout (traced B)) := by
  unfold currentRetryTimeout; fs
theorem fs_setRetryCount (n : U8) : FailStop id (setRetryCount (traced B) n) := .write
theorem fs_currentRetryCount : FailStop id (currentRetryCount (traced B)) := .read1
theorem fs_readIp (a : U16) : FailStop id (readIp (traced B) a) := by
  unfold readIp; fs
theorem fs_mac : FailStop id (Device.mac (traced B)) := by
  unfold Device.mac; fs
theorem fs_phyConfig : FailStop id (Device.phyConfig (traced B)) := by
  unfold Device.phyConfig; fs
theorem fs_devReset :
    FailStop ResetError.other (Device.reset (traced B) : M (Device (TW W E) H) _ _) := by
  have := fs_resetChip (B := B)
  unfold Device.reset; fs

theorem fs_writeSettings (c : HostConfig) : FailStop id (writeSettings (traced B) c) := by
  unfold writeSettings; fs
theorem fs_refresh_manual : FailStop id (Manual.refresh (traced B)) := by
  have := fs_writeSettings (B := B)
  unfold Manual.refresh
  refine .bind .get fun s => ?_
  dsimp only
  split
  · refine .bind (.zoom (fun _ => rfl) (fun _ _ => rfl) (this _)) fun _ => ?_
    exact .noop (fun _ => rfl) (fun _ _ h => by cases h)
  · exact .pure _
theorem fs_assertChipVersion (v : U8) :
    FailStop InitializeError.spiError (Uninit.assertChipVersion (traced B) v) := by
  have := fs_version (B := B)
  unfold Uninit.assertChipVersion; fs
theorem fs_initializeWithHost [Host H] (hr : FailStop id (Host.refresh (H := H) (traced B)))
    (av : Bool) (h : H) (m : Mode) :
    FailStop InitializeError.spiError (Uninit.initializeWithHost av (traced B) h m) := by
  have h1 := fs_assertChipVersion (B := B) 4
  have h2 := fs_resetChip (B := B)
  have h3 := fs_setModeDev (B := B) m
  unfold Uninit.initializeWithHost; fs
theorem fs_initializeMacraw (m : Mac) :
    FailStop InitializeError.spiError (Uninit.initializeMacraw (traced B) m) := by
  have h1 := fs_raw_new (B := B)
  unfold Uninit.initializeMacraw; fs

end W5500
