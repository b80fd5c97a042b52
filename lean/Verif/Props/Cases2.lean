import Verif.Props.Cases1
import Verif.Props.Udp
import Verif.Props.TcpConnect
import Verif.Props.Refusals
import Verif.Props.Success

/-! Concrete cases, C35–C54: see `Props/Cases1.lean`. -/

namespace W5500.Props
open W5500.Spec

theorem run_eta {α β γ : Type} {r : α × β × γ} {a : α} (h : r.1 = a) : r = (a, (r.2.1, r.2.2)) := run_eq h

/-! ## C35: preconditions of UDP send -/

/-- The chip that does nothing by itself. -/
def quietBus : Bus Chip Unit := (Chip.dev quietSched noFaults).bus
/-- Bound to a port, not connected. -/
def quietBound : UdpSocket × Device Chip Unit := (Device.udpBind quietBus 5000 (demoUdp, demoDevice)).2

example := C35_status_partial quietBus 9 demoUdp [1] demoDevice 0x00 _
  (run_eq' (r := quietBus.readFrame demoDevice.bus 1 0x03 [0]) (by decide +kernel) (by decide +kernel)) (by decide)
example := C35_destination quietBus 9 quietBound.1 [1] quietBound.2 _
  (run_eq' (r := quietBus.readFrame quietBound.2.bus 1 0x03 [0]) (by decide +kernel) (by decide +kernel)) rfl
example := C35_full_partial (sameBus [0, 0]) 9 ⟨Socket.new 0, some addrA, 5000⟩ [7] (⟨(), DeviceState.new ()⟩ : Device Unit Unit) () () rfl
  nofun rfl
example := C35_send_to quietBus 9 quietBound.1 addrA [1] quietBound.2 _
  (run_eq (r := writeAll quietBus (destScript quietBound.1 addrA) quietBound.2.bus) (by decide +kernel))

/-! ## C36 … C38: UDP send -/

theorem demo_sent : Device.udpSend (Chip.dev emitSched noFaults).bus 9 (udpConnected noFaults).1 [1, 2, 3] (udpConnected noFaults).2 =
    (.ok (), (Device.udpSend (Chip.dev emitSched noFaults).bus 9 (udpConnected noFaults).1 [1, 2, 3] (udpConnected noFaults).2).2) :=
  run_eq (by decide +kernel)
/-- More than the transmit buffer of 2048 bytes takes. -/
def largeData : List U8 := List.replicate 2049 7

example := C36_pieces 2 (by decide) [1, 2, 3, 4, 5]
example := C36_history (n := 0) (by decide) demo_opened (.send 9 [1, 2, 3] addrA .start demo_sent (by decide +kernel))
example := C36_send (n := 0) (by decide) demo_opened .start 9 [1, 2, 3] demo_sent
example := C36_send_to (n := 0) (by decide) demo_opened .start 9 addrB [1]
  (run_eq' (r := Device.udpSendTo (Chip.dev emitSched noFaults).bus 9 (.v4 addrB) [1] (udpConnected noFaults)) (by decide +kernel) rfl)
example := C37_partial (n := 0) (by decide) demo_opened .start 9 [1, 2, 3] demo_sent
example : ∃ (d' : Device Chip Unit) (p q : Packet) (ps : List Packet), (d'.bus.socks 0).packets = p :: q :: ps := by
  obtain ⟨d', ⟨_, N, hN⟩, _⟩ := C76_udp_send (n := 0) (by decide) (fun _ => rfl) emit_status emit_emitting emit_lossless demo_opened
    .start (by decide +kernel) (by unfold Sock.NoTimeout; decide +kernel) addrA (by decide +kernel) largeData
  obtain ⟨p, q, ps, h⟩ := C37_large (n := 0) (by decide) demo_opened .start N largeData (hN N (Nat.le_refl _)) (by decide +kernel)
  exact ⟨d', p, q, ps, h⟩
/-- `send_to` B fails while it writes the address; the object still says A. -/
example := C38_partial (n := 0) (by decide) (sched := emitSched) (faults := faultAt 8)
  (.sendTo (H := Unit) (u := (udpConnected (faultAt 8)).1) (d := (udpConnected (faultAt 8)).2) 9 (.v4 addrB) [1]
    (.err (.other (.other ()))) (.connect (H := Unit) (u := demoUdp) (d := demoDevice) (.v4 addrA) (.ok ())
      (.new _ powerUp_sizes) (run_eq (by decide +kernel)) (fun a ha => by cases ha; left; decide +kernel)) (run_eq (by decide +kernel))
    (fun a ha => by cases ha; right; decide +kernel)) addrA (by decide +kernel)
example := C38_settled_connect (n := 0) (.v4 addrA) (.ok ())
  (run_eq (r := Device.udpConnect (Chip.dev emitSched noFaults).bus (.v4 addrA) (demoUdp, demoDevice)) (by decide +kernel)) nofun
example := C38_settled_send_to (n := 0) 9 (.v4 addrB) [1] (.ok ())
  (run_eq (r := Device.udpSendTo (Chip.dev emitSched noFaults).bus 9 (.v4 addrB) [1] (udpConnected noFaults)) (by decide +kernel)) nofun

/-! ## C39 … C43: UDP receive -/

/-- Two datagrams arrive, or one. -/
def two : List Dgram := [dgramA, dgramB]
theorem two_opened : UdpOpened (arriveSched two) noFaults 0 (arriveBound two).1 (arriveBound two).2.bus :=
  .bind (H := Unit) (u := demoUdp) (d := demoDevice) 5000 (.new _ powerUp_sizes) (run_eq (by decide +kernel))
theorem one_opened : UdpOpened (arriveSched [dgramA]) noFaults 0 (arriveBound [dgramA]).1 (arriveBound [dgramA]).2.bus :=
  .bind (H := Unit) (u := demoUdp) (d := demoDevice) 5000 (.new _ powerUp_sizes) (run_eq (by decide +kernel))
/-- The datagrams have arrived. -/
def twoArrived : Device Chip Unit := ⟨later (arriveSched two) (arriveBound two).2.bus, DeviceState.new ()⟩
def oneArrived : Device Chip Unit := ⟨later (arriveSched [dgramA]) (arriveBound [dgramA]).2.bus, DeviceState.new ()⟩
theorem two_run : UdpRun (arriveSched two) noFaults 0 (arriveBound two).1 (arriveBound two).2.bus [] [] (arriveBound two).1
    twoArrived.bus := by
  have h := later_udp (UdpRun.start (u0 := (arriveBound two).1) (c0 := (arriveBound two).2.bus) (sched := arriveSched two))
  rw [twoArrived]
  exact h
theorem one_run : UdpRun (arriveSched [dgramA]) noFaults 0 (arriveBound [dgramA]).1 (arriveBound [dgramA]).2.bus [] []
    (arriveBound [dgramA]).1 oneArrived.bus := by
  have h := later_udp (UdpRun.start (u0 := (arriveBound [dgramA]).1) (c0 := (arriveBound [dgramA]).2.bus) (sched := arriveSched [dgramA]))
  rw [oneArrived]
  exact h
/-- The received call with a buffer. -/
def twoReceive (buf : List U8) : Res (NbError (UdpSocketError Unit)) (Nat × SockAddr) × List U8 × Device Chip Unit :=
  Device.udpReceive (Chip.dev (arriveSched two) noFaults).bus 9 (arriveBound two).1 (buf, twoArrived)
theorem two_received : Device.udpReceive (Chip.dev (arriveSched two) noFaults).bus 9 (arriveBound two).1 ([0, 0, 0, 0], twoArrived) =
    (.ok (4, .v4 addrA), ((twoReceive [0, 0, 0, 0]).2.1, (twoReceive [0, 0, 0, 0]).2.2)) := run_eq (by decide +kernel)
theorem two_panic : Device.udpReceive (Chip.dev (arriveSched two) noFaults).bus 9 (arriveBound two).1 ([0], twoArrived) =
    (.panic, ((twoReceive [0]).2.1, (twoReceive [0]).2.2)) := run_eq (by decide +kernel)
theorem two_queued : Sock.Queued two (twoArrived.bus.socks 0) :=
  ⟨by simp [two, Dgram.Wf, dgramA, dgramB], by decide +kernel⟩

example := C39 (n := 0) (by decide) two_opened two_run 9 _ _ _ _ two_received
example := C40_partial (n := 0) (by decide) two_opened two_run 9 _ _ _ _ two_received
example := C41_chip_partial (n := 0) (by decide) two_opened two_run 9 _ _ _ two_panic two two_queued
example := C42_partial (n := 0) (by decide) two_opened (.receive 9 _ _ _ _ two_run two_received)
example := C42_all_removed (n := 0) (by decide) two_opened two_run 9 _ _ _ two_received
example := C42_single (n := 0) (by decide) one_opened one_run 9 [0, 0] _ 2 (.v4 addrA)
  (run_eq (r := Device.udpReceive (Chip.dev (arriveSched [dgramA]) noFaults).bus 9 (arriveBound [dgramA]).1 ([0, 0], oneArrived))
    (by decide +kernel)) dgramA ⟨by simp [Dgram.Wf, dgramA], by decide +kernel⟩ (by decide +kernel)
example := C43_before_data (Chip.dev (arriveSched two) noFaults).bus 9 _ _ _ _ _ _ two_received

/-! ## C45 … C48: TCP -/

theorem demo_connected : Device.tcpConnect (Chip.dev demoSched noFaults).bus 100 ⟨Socket.new (BitVec.ofNat 8 0)⟩ demoRemote demoDevice =
    (.ok (), demoConnected) := run_eq (by decide +kernel)
/-- Three bytes sent; then the bytes that have arrived by then are received in part. -/
def demoSent : Device Chip Unit := (Device.tcpSend (Chip.dev demoSched noFaults).bus 9 demoSocket [7, 8, 9] demoConnected).2
def demoReceived : List U8 × Device Chip Unit :=
  (Device.tcpReceive (Chip.dev demoSched noFaults).bus 9 demoSocket ([0, 0], demoSent)).2
theorem demo_sent_run : TcpRun demoSched noFaults 0 demoConnected.bus [7, 8, 9] [] demoSent.bus :=
  .send (faults := noFaults) (d := demoConnected) (n := 0) 9 [7, 8, 9] 3 .start (run_eq (by decide +kernel))
theorem demo_received : Device.tcpReceive (Chip.dev demoSched noFaults).bus 9 demoSocket ([0, 0], demoSent) =
    (.ok 2, ([1, 2], demoReceived.2)) := run_eq' (by decide +kernel) (by decide +kernel)
theorem demo_received_run : TcpRun demoSched noFaults 0 demoConnected.bus [7, 8, 9] [1, 2] demoReceived.2.bus :=
  .receive 9 [0, 0] [1, 2] 2 demo_sent_run demo_received

example := C45 0 (by decide) 100 demoRemote demoDevice _ powerUp_sizes demo_connected _ _ _ demo_received_run
example := C45_count (Chip.dev demoSched noFaults).bus 9 demoSocket [7, 8, 9] demoConnected.bus _ 3
  (run_eq (r := demoSocket.socketSend (Chip.dev demoSched noFaults).bus 9 [7, 8, 9] demoConnected.bus) (by decide +kernel))
example := C46 0 (by decide) 100 demoRemote demoDevice _ powerUp_sizes demo_connected _ _ _ demo_received_run
example := C46_buffer (Chip.dev demoSched noFaults).bus 9 demoSocket _ _ _ _ 2 demo_received
example := C47_partial 0 (by decide) 100 9 demoRemote demoDevice _ _ _ powerUp_sizes demo_connected _ _ demo_sent_run
  (by decide +kernel) _ _ _ demo_received
/-- Right after `connect`, RECV is not raised. -/
example := C47_ignored (Chip.dev quietSched noFaults).bus 9 demoSocket [0, 0] demoConnected _ _ 0x10
  (run_eq' (r := (Chip.dev quietSched noFaults).bus.readFrame demoConnected.bus 1 0x03 [0]) (by decide +kernel) (by decide +kernel))
  (run_eq' (by decide +kernel) (by decide +kernel)) (by decide)

/-- Three bytes arrive while something is being sent; then the peer closes. -/
def closingSched (k : Nat) : List (Nat × Act) := demoSched k ++ if 20 ≤ k then [(0, .status 0x1C)] else []
def closingBus : Bus Chip Unit := (Chip.dev closingSched noFaults).bus
def closingConnected : Device Chip Unit := (Device.tcpConnect closingBus 100 demoSocket demoRemote demoDevice).2
def closingSent : Device Chip Unit := (Device.tcpSend closingBus 9 demoSocket [7] closingConnected).2
theorem closing_connected : Device.tcpConnect (Chip.dev closingSched noFaults).bus 100 ⟨Socket.new (BitVec.ofNat 8 0)⟩ demoRemote
    demoDevice = (.ok (), closingConnected) := run_eq (r := Device.tcpConnect closingBus 100 demoSocket demoRemote demoDevice) (by decide +kernel)
theorem closing_sent : TcpRun closingSched noFaults 0 closingConnected.bus [7] [] closingSent.bus :=
  .send (H := Unit) (d := closingConnected) 9 [7] 1 .start
    (run_eq (r := Device.tcpSend closingBus 9 demoSocket [7] closingConnected) (by decide +kernel))

example := C48_kept_partial 0 (by decide) 100 9 demoRemote demoDevice _ closingSent _ powerUp_sizes closing_connected _ _ closing_sent
  [0, 0, 0] _ .notConnected (run_eq (r := Device.tcpReceive closingBus 9 demoSocket ([0, 0, 0], closingSent)) (by decide +kernel)) nofun

/-! ## C41: a panic -/

example := C41_panic_partial (Chip.dev (arriveSched two) noFaults).bus (calm_bus _) 9 _ _ _ _ _ two_panic

/-! ## C49 … C54: connecting, failures -/

theorem chip_returning (sched : Nat → List (Nat × Act)) (faults : Nat → Option (Unit × Nat)) : Returning (Chip.dev sched faults).bus := by
  constructor <;> intro w b a d <;> simp only [ByteDev.bus] <;> split <;> nofun

example := C49_partial (Chip.dev demoSched noFaults).bus demoSocket 100 demoRemote demoDevice _ demo_connected
/-- The peer never answers. -/
example := C50_partial (Chip.dev quietSched noFaults).bus (chip_returning _ _) demoSocket 20 demoRemote demoDevice (by decide +kernel)
/-- SENDOK never comes. -/
example := C51_partial (Chip.dev timeoutSched noFaults).bus (chip_returning _ _) demoSocket 20 [1, 2, 3] timeoutDevice (C51_refuted 20)
example := C52 (Chip.dev demoSched noFaults).bus 0 (by decide) 9 ⟨⟨10, 0, 0, 1⟩, 80⟩ (⟨⟨Chip.powerUp, []⟩, DeviceState.new ()⟩ : Device (TW Chip Unit) Unit) rfl
  ((openScript 1 49849 0x01 0).map Wr.done ++ [Ev.rd 1 0x03 [0x13] (.ok ())] ++ (remoteScript 1 [10, 0, 0, 1] 80).map Wr.done)
  [Ev.rd 1 0x03 [0x15] (.ok ()), Ev.rd 1 0x03 [0x17] (.ok ())] (.ok ()) (by decide +kernel)
/-- The socket is a UDP socket. -/
example := C52_refused quietBus demoSocket 9 ⟨⟨10, 0, 0, 1⟩, 80⟩ quietBound.2.bus _ 0x22
  (run_eq' (r := quietBus.readFrame quietBound.2.bus 1 0x03 [0]) (by decide +kernel) (by decide +kernel)) (by decide) (by decide)
/-- Transaction 16 fails, in the middle of a send or receive; the next one succeeds. -/
def failedConnected : Device Chip Unit := (Device.tcpConnect (Chip.dev demoSched (faultAt 16)).bus 100 demoSocket demoRemote demoDevice).2
def failedSend : Device Chip Unit := (Device.tcpSend (Chip.dev demoSched (faultAt 16)).bus 9 demoSocket [7, 8, 9] failedConnected).2
theorem failed_connected : Device.tcpConnect (Chip.dev demoSched (faultAt 16)).bus 100 ⟨Socket.new (BitVec.ofNat 8 0)⟩ demoRemote demoDevice =
    (.ok (), failedConnected) := run_eq (by decide +kernel)
example := C53_partial 0 (by decide) 100 9 demoRemote demoDevice _ _ failedSend powerUp_sizes failed_connected _ _ .start [7, 8, 9] (.other ())
  (run_eq (by decide +kernel)) (by decide +kernel) _ _ _ (.send (H := Unit) (d := failedSend) 9 [4, 5] 2 .start (run_eq (by decide +kernel)))
def failedReceive : List U8 × Device Chip Unit :=
  (Device.tcpReceive (Chip.dev demoSched (faultAt 16)).bus 9 demoSocket ([9, 9], failedConnected)).2
theorem failed_received : Device.tcpReceive (Chip.dev demoSched (faultAt 16)).bus 9 ⟨Socket.new (BitVec.ofNat 8 0)⟩ ([9, 9], failedConnected) =
    (.err (.other ()), (failedReceive.1, failedReceive.2)) :=
  run_eta (r := Device.tcpReceive (Chip.dev demoSched (faultAt 16)).bus 9 demoSocket ([9, 9], failedConnected)) (by decide +kernel)
example := C54_partial 0 (by decide) 100 9 demoRemote demoDevice _ _ _ powerUp_sizes failed_connected _ _ .start [9, 9] _
  (.other ()) failed_received (by decide +kernel) _ _ _
  (.receive (H := Unit) (d := failedReceive.2) 9 [0, 0] _ 2 .start
    (run_eq (r := Device.tcpReceive (Chip.dev demoSched (faultAt 16)).bus 9 demoSocket ([0, 0], failedReceive.2)) (by decide +kernel)))

end W5500.Props
