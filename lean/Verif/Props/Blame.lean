import Verif.Proofs.Blame
import Verif.Props.Raw
import Verif.Props.Alloc
/-! # Every error a call returns is backed by what was seen on the bus (C70) -/

namespace W5500.Props
open W5500 W5500.Spec
variable {W E H : Type} {B : Bus W E}

/-- C70 for UDP `send`. -/
theorem C70_udp_send {fuel : Nat} {u : UdpSocket} {data : List U8} {d d' : Device (TW W E) H} {e : NbError (UdpSocketError E)}
    (h : Device.udpSend (traced B) fuel u data d = (.err e, d')) :
    ∃ evs, d'.bus.log = d.bus.log ++ evs ∧ UdpSendReason u.socket.register u.destination evs e := by
  obtain ⟨evs, h1, _, h3⟩ := (Shows.onBus (H := H) (shows_udpSendAll (B := B) u fuel data)).run d
  have hr : Device.onBus (u.socketSendAll (traced B) fuel data) d = _ := h
  rw [hr] at h1 h3
  exact ⟨evs, h1, h3 e rfl⟩

/-- C70 for UDP `send_to`. The destination is the one named in the call, so `DestinationNotSet` does not occur. -/
theorem C70_udp_send_to {fuel : Nat} {u u' : UdpSocket} {a : SockAddr4} {data : List U8} {d d' : Device (TW W E) H}
    {e : NbError (UdpSocketError E)} (h : Device.udpSendTo (traced B) fuel (.v4 a) data (u, d) = (.err e, (u', d'))) :
    ∃ evs, d'.bus.log = d.bus.log ++ evs ∧ UdpSendReason u.socket.register (some a) evs e := by
  obtain ⟨evs, h1, _, h3⟩ := (ShowsAt.onSockBus (H := H) (shows_udpSendTo (B := B) a u fuel data)).run d
  have hr : Device.onSockBus (UdpSocket.socketSendTo (traced B) fuel a data) (u, d) = _ := h
  rw [hr] at h1 h3
  exact ⟨evs, h1, h3 e rfl⟩

/-- C70 for UDP `receive`. -/
theorem C70_udp_receive {fuel : Nat} {u : UdpSocket} {buf buf' : List U8} {d d' : Device (TW W E) H} {e : NbError (UdpSocketError E)}
    (h : Device.udpReceive (traced B) fuel u (buf, d) = (.err e, (buf', d'))) :
    ∃ evs, d'.bus.log = d.bus.log ++ evs ∧ UdpReceiveReason u.socket.register buf.length evs e := by
  have hs : ShowsAt buf (do let (received, header) ← u.socketReceive (traced B) fuel; pure (received, SockAddr.v4 header.origin))
      (fun _ _ => True) (fun e evs => UdpReceiveReason u.socket.register buf.length evs e) := by
    constructor; intro t
    obtain ⟨evs, h1, _, h3⟩ := (shows_udpReceive (B := B) u fuel buf).run t
    rw [M.bind_def]
    rcases hr : u.socketReceive (traced B) fuel (buf, t) with ⟨r | r | _ | _, s'⟩
    all_goals rw [hr] at h1 h3
    · exact ⟨evs, h1, fun _ _ => trivial, (fun _ h => nomatch h)⟩
    · exact ⟨evs, h1, fun _ _ => trivial, fun e he => by cases he; exact h3 _ rfl⟩
    · exact ⟨evs, h1, fun _ _ => trivial, (fun _ h => nomatch h)⟩
    · exact ⟨evs, h1, fun _ _ => trivial, (fun _ h => nomatch h)⟩
  obtain ⟨evs, h1, _, h3⟩ := (ShowsAt.onSockBus (H := H) hs).run d
  have hr : Device.onSockBus (do let (received, header) ← u.socketReceive (traced B) fuel; pure (received, SockAddr.v4 header.origin))
    (buf, d) = _ := h
  rw [hr] at h1 h3
  exact ⟨evs, h1, h3 e rfl⟩

/-- C70 for UDP `connect` and `bind` (IPv4): only a failed transfer makes them fail. -/
theorem C70_udp_open {u u' : UdpSocket} {d d' : Device (TW W E) H} {e : UdpSocketError E}
    (h : (∃ a, Device.udpConnect (traced B) (.v4 a) (u, d) = (.err e, (u', d'))) ∨
      ∃ port, Device.udpBind (traced B) port (u, d) = (.err e, (u', d'))) :
    ∃ evs, d'.bus.log = d.bus.log ++ evs ∧ ∃ x, e = .other x ∧ Failed evs x := by
  rcases h with ⟨a, h⟩ | ⟨port, h⟩
  · obtain ⟨evs, h1, _, h3⟩ := (ShowsAt.onSockBus (H := H) (shows_udpConnect (B := B) a u)).run d
    have hr : Device.onSockBus _ (u, d) = _ := h
    rw [hr] at h1 h3
    exact ⟨evs, h1, h3 e rfl⟩
  · obtain ⟨evs, h1, _, h3⟩ := (ShowsAt.onSockBus (H := H) (shows_udpBind (B := B) port u)).run d
    have hr : Device.onSockBus _ (u, d) = _ := h
    rw [hr] at h1 h3
    exact ⟨evs, h1, h3 e rfl⟩

/-- C70 for `UdpSocket::set_port`. -/
theorem C70_set_port {port : U16} {u u' : UdpSocket} {w w' : TW W E} {e : UdpSocketError E}
    (h : UdpSocket.setPort (traced B) port (u, w) = (.err e, (u', w'))) :
    ∃ evs, w'.log = w.log ++ evs ∧ ∃ x, e = .other x ∧ Failed evs x := by
  obtain ⟨evs, h1, _, h3⟩ := (shows_setPort (B := B) port u).run w
  rw [h] at h1 h3
  exact ⟨evs, h1, h3 e rfl⟩

/-- C70 for `close` of UDP and TCP sockets: only a failed transfer makes them fail. -/
theorem C70_close {d d' : Device (TW W E) H} :
    (∀ (u : UdpSocket) e, Device.udpClose (traced B) u d = (.err e, d') →
      ∃ evs, d'.bus.log = d.bus.log ++ evs ∧ ∃ x, e = .other x ∧ Failed evs x) ∧
    ∀ (t : TcpSocket) e, Device.tcpClose (traced B) t d = (.err e, d') →
      ∃ evs, d'.bus.log = d.bus.log ++ evs ∧ ∃ x, e = .other x ∧ Failed evs x := by
  have hJ {F : Type} (f : E → F) : Final fun e (evs : List (Ev E)) => ∃ x, e = f x ∧ Failed evs x :=
    fun _ _ _ ⟨x, h1, h2⟩ => ⟨x, h1, h2.final⟩
  have rel {ε : Type} (k : Socket) (J : ε → List (Ev E) → Prop) :
      Shows (Device.releaseSocket k : M (Device (TW W E) H) ε Unit) (fun _ _ => True) J := by
    refine ⟨fun d => ?_⟩
    unfold Device.releaseSocket
    split
    · exact ⟨[], (List.append_nil _).symm, fun _ _ => trivial, fun _ h => nomatch h⟩
    · exact ⟨[], (List.append_nil _).symm, fun _ h => (nomatch h), fun _ h => nomatch h⟩
  refine ⟨fun u e h => ?_, fun t e h => ?_⟩
  · have hs : Shows (Device.udpClose (traced B) u : M (Device (TW W E) H) _ Unit) (fun _ _ => True)
        (fun e evs => ∃ x, e = .other x ∧ Failed evs x) := by
      refine Shows.bind (hJ _) (Shows.onBus (.mapErr ?_)) fun _ => rel _ _
      refine (Shows.bind failed_final (shows_write _ _ _).any fun _ => (shows_write _ _ _).any).conseq (fun _ _ h => h)
        fun e evs h => ⟨e, rfl, h⟩
    obtain ⟨evs, h1, _, h3⟩ := hs.run d
    rw [h] at h1 h3
    exact ⟨evs, h1, h3 e rfl⟩
  · have hs : Shows (Device.tcpClose (traced B) t : M (Device (TW W E) H) _ Unit) (fun _ _ => True)
        (fun e evs => ∃ x, e = .other x ∧ Failed evs x) := by
      refine Shows.bind (hJ _) (Shows.onBus (.mapErr ?_)) fun _ => rel _ _
      refine (Shows.bind failed_final (shows_write _ _ _).any fun _ => (shows_write _ _ _).any).conseq (fun _ _ h => h)
        fun e evs h => ⟨e, rfl, h⟩
    obtain ⟨evs, h1, _, h3⟩ := hs.run d
    rw [h] at h1 h3
    exact ⟨evs, h1, h3 e rfl⟩

/-- C70 for TCP `connect` (IPv4). -/
theorem C70_tcp_connect {fuel : Nat} {t : TcpSocket} {a : SockAddr4} {d d' : Device (TW W E) H} {e : TcpSocketError E}
    (h : Device.tcpConnect (traced B) fuel t (.v4 a) d = (.err e, d')) :
    ∃ evs, d'.bus.log = d.bus.log ++ evs ∧ TcpConnectReason t.socket.register evs e := by
  have hs := Shows.onBus (H := H) (Shows.bind (connect_final t.socket.register)
    (shows_tcpOpen (B := B) t.socket.register t (49849 + t.socket.index.setWidth 16)) fun _ => shows_tcpConnect (B := B) t fuel a)
  obtain ⟨evs, h1, _, h3⟩ := hs.run d
  have hr : Device.onBus _ d = _ := h
  rw [hr] at h1 h3
  exact ⟨evs, h1, h3 e rfl⟩

/-- C70 for TCP `send`. -/
theorem C70_tcp_send {fuel : Nat} {t : TcpSocket} {data : List U8} {d d' : Device (TW W E) H} {e : TcpSocketError E}
    (h : Device.tcpSend (traced B) fuel t data d = (.err e, d')) :
    ∃ evs, d'.bus.log = d.bus.log ++ evs ∧ TcpDataReason t.socket.register evs e := by
  obtain ⟨evs, h1, _, h3⟩ := (Shows.onBus (H := H) (shows_tcpSend (B := B) t fuel data)).run d
  have hr : Device.onBus _ d = _ := h
  rw [hr] at h1 h3
  exact ⟨evs, h1, h3 e rfl⟩

/-- C70 for TCP `receive`. -/
theorem C70_tcp_receive {fuel : Nat} {t : TcpSocket} {buf buf' : List U8} {d d' : Device (TW W E) H} {e : TcpSocketError E}
    (h : Device.tcpReceive (traced B) fuel t (buf, d) = (.err e, (buf', d'))) :
    ∃ evs, d'.bus.log = d.bus.log ++ evs ∧ TcpDataReason t.socket.register evs e := by
  obtain ⟨evs, h1, _, h3⟩ := (Shows.onSockBus (H := H) (shows_tcpReceive (B := B) t fuel)).run (buf, d)
  have hr : Device.onSockBus _ (buf, d) = _ := h
  rw [hr] at h1 h3
  exact ⟨evs, h1, h3 e rfl⟩

/-- C70: an IPv6 address is refused without a word on the bus. -/
theorem C70_v6 {fuel : Nat} {a : List U16} {port : U16} {u : UdpSocket} {t : TcpSocket} {data : List U8} {d : Device (TW W E) H} :
    Device.tcpConnect (traced B) fuel t (.v6 a port) d = (.err .unsupportedAddress, d) ∧
    Device.udpConnect (traced B) (.v6 a port) (u, d) = (.err .unsupportedAddress, (u, d)) ∧
    Device.udpSendTo (traced B) fuel (.v6 a port) data (u, d) = (.err (.other .unsupportedAddress), (u, d)) := ⟨rfl, rfl, rfl⟩

/-! Each kind of error occurs. -/

/-- A chip that answers every read with the same registers. -/
def blameBus (sr ir fsr rsr : U8) : Bus (TW Unit Unit) Unit :=
  traced (romBus fun a => if a = 0x03 then sr else if a = 0x02 then ir else if a = 0x21 then fsr else if a = 0x27 then rsr else 0)

def blameDevice : Device (TW Unit Unit) Unit := { bus := ⟨(), []⟩, state := { host := (), sockets := 0xFF } }

def blameUdp : UdpSocket := { socket := Socket.new 2, destination := some ⟨⟨10, 0, 0, 1⟩, 80⟩, port := 7 }

example : (Device.udpReceive (blameBus 0x22 0 9 0) 5 blameUdp ([1, 2], blameDevice)).1 = .err .wouldBlock := by decide +kernel
example : (Device.udpReceive (blameBus 0x22 4 9 0) 5 blameUdp ([1, 2], blameDevice)).1 = .err .wouldBlock := by decide +kernel
example : (Device.udpReceive (blameBus 0x22 4 9 9) 5 blameUdp ([], blameDevice)).1 = .err (.other .bufferOverflow) := by
  decide +kernel
example : (Device.udpSend (blameBus 0x22 0 0 0) 5 blameUdp [1] blameDevice).1 = .err (.other .bufferFull) := by decide +kernel
example : (Device.udpSend (blameBus 0x22 8 9 0) 5 blameUdp [1] blameDevice).1 = .err (.other .writeTimeout) := by decide +kernel
example : (Device.udpSend (blameBus 0x17 8 9 0) 5 blameUdp [1] blameDevice).1 = .err (.other .socketNotOpen) := by decide +kernel
example : (Device.udpSend (blameBus 0x99 8 9 0) 5 blameUdp [1] blameDevice).1 = .err (.other .unrecognisedStatus) := by
  decide +kernel
example : (Device.udpSend (blameBus 0x22 8 9 0) 5 (.new (.new 2)) [1] blameDevice).1 = .err (.other .destinationNotSet) := by
  decide +kernel
example : (Device.tcpSend (blameBus 0x1C 0 9 0) 5 ⟨.new 2⟩ [1] blameDevice).1 = .err .notConnected := by decide +kernel
example : (Device.tcpReceive (blameBus 0x1C 0 9 0) 5 ⟨.new 2⟩ ([1], blameDevice)).1 = .err .notConnected := by decide +kernel
example : (Device.tcpConnect (blameBus 0x42 0 9 0) 5 ⟨.new 2⟩ (.v4 ⟨⟨10, 0, 0, 1⟩, 80⟩) blameDevice).1 = .err .unsupportedMode := by
  decide +kernel
example : (Device.udpBind (H := Unit) (traced badBus) 7 (blameUdp, { bus := ⟨(), []⟩, state := { host := (), sockets := 0xFF } })).1 =
    .err (.other ()) := by decide +kernel
example : (UdpSocket.setPort (traced badBus) 7 (blameUdp, ⟨(), []⟩)).1 = .err (.other ()) := by decide +kernel
example : (Device.udpClose (traced badBus) blameUdp blameDevice).1 = .err (.other ()) ∧
    (Device.tcpClose (traced badBus) ⟨.new 2⟩ blameDevice).1 = .err (.other ()) := by decide +kernel

end W5500.Props
