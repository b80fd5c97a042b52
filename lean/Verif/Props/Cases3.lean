import Verif.Props.Cases2
import Verif.Props.Raw
import Verif.Props.System
import Verif.Props.Panics
import Verif.Props.Lifecycle
import Verif.Props.Returns

/-! Concrete cases, C55–C66: see `Props/Cases1.lean`. -/

namespace W5500.Props
open W5500.Spec

/-! ## C55 … C58: Ethernet frames -/

/-- The first frame is read, cut off, into a buffer of three bytes. -/
theorem frame_read : rawDemo.readFrame (Chip.dev frameSched noFaults).bus 9 ([0, 0, 0], rawChip noFaults) =
    (.ok 3, ((rawRead noFaults [0, 0, 0] (rawChip noFaults)).2.1, (rawRead noFaults [0, 0, 0] (rawChip noFaults)).2.2)) :=
  run_eta (r := rawRead noFaults [0, 0, 0] (rawChip noFaults)) (by decide +kernel)
def rawWritten : Chip := (rawDemo.writeFrame (Chip.dev frameSched noFaults).bus 9 [7, 8] (rawChip noFaults)).2
theorem frame_written : rawDemo.writeFrame (Chip.dev frameSched noFaults).bus 9 [7, 8] (rawChip noFaults) = (.ok 2, rawWritten) :=
  run_eq (by decide +kernel)

example := C55_history rawDemo_opened (.writeFrame 9 [7, 8] 2 (.readFrame 9 _ _ 3 .start frame_read)
  (run_eq (r := rawDemo.writeFrame (Chip.dev frameSched noFaults).bus 9 [7, 8] _) (by decide +kernel)))
example := C55_call rawDemo_opened (later_raw .start) [[1, 2, 3, 4], [5, 6]] ⟨by simp, by decide +kernel⟩ 9 [0, 0, 0] _ 3
  (run_eta (r := rawDemo.readFrame (Chip.dev frameSched noFaults).bus 9 ([0, 0, 0], rawArrived)) (by decide +kernel))
example := C56 _ 9 rawDemo _ _ _ _ 3 frame_read
example := C56_buffer _ 9 rawDemo _ _ _ _ 3 frame_read
/-- A bus that reports one received byte. -/
theorem romBus_calm (rom : U16 → U8) : Calm (romBus rom) := ⟨nofun, nofun⟩
example := (C56_panic (romBus fun a => if a = 0x27 then 1 else 0) (romBus_calm _) 9 rawDemo [1, 1, 1, 1] _ () _).mp
  (run_eta (r := rawDemo.readFrame (romBus fun a => if a = 0x27 then 1 else 0) 9 ([1, 1, 1, 1], ())) (by decide +kernel))
example := C57_bus _ 9 rawDemo _ _ _ _ frame_written
example := C57_chip rawDemo_opened .start 9 _ _ frame_written
example := C57_failed (sched := frameSched) (faults := faultAt 22) (.new (run_eq (by decide +kernel))) .start 9 [7, 8] (.err ())
  (run_eq (r := rawDemo.writeFrame (Chip.dev frameSched (faultAt 22)).bus 9 [7, 8] (rawChip (faultAt 22))) (by decide +kernel))
example := C57_history rawDemo_opened (.writeFrame 9 [7, 8] 2 .start frame_written)
/-- An oversized frame; nothing leaves. -/
example := C58_partial (sched := frameSched) (faults := noFaults) rawDemo_opened .start 50 (List.replicate 20000 0) (by rw [List.length_replicate]; decide) .fuel
  (run_eq (C58_refuted (sched := frameSched) (faults := noFaults) rawDemo_opened .start (fun _ => rfl) _ _ (.inr (by rw [List.length_replicate]; decide))))
example (c' : Chip) := C58_never_ok (sched := frameSched) (faults := noFaults) (c' := c') rawDemo_opened .start 50 [] (.inl rfl) 0

/-! ## C60: the order of a transmission -/

example := C60_udp_send (H := Unit) (failsAfter 100) 5 1 { UdpSocket.new (Socket.new 1) with destination := some addrA } ⟨by decide, rfl⟩ [7, 8]
example := C60_udp_send_to (failsAfter 100) 5 1 (.v4 addrA) [7, 8]
  (UdpSocket.new (Socket.new 1), (⟨⟨0, []⟩, DeviceState.new ()⟩ : Device (TW Nat Unit) Unit)) ⟨by decide, rfl⟩
example := C60_tcp_send (H := Unit) (failsAfter 100) 5 1 ⟨Socket.new 1⟩ ⟨by decide, rfl⟩ [7, 8]
example := C60_raw_write_frame (failsAfter 100) 5 rawDemo rfl [7, 8]
example := C60_no_other_send (H := Unit) (failsAfter 100) 5 1 (UdpSocket.new (Socket.new 1)) ⟨by decide, rfl⟩ ⟨Socket.new 1⟩ ⟨by decide, rfl⟩
  fun _ => False

/-! ## C62, C63: initialisation -/

example := C62_advanced _ _ _ _ _ _ _ _ _ advanced_run 3
example := C62_dhcp true demoMac Mode.default leftovers _ (DeviceState.new ⟨⟩)
  (run_eq (r := Uninit.initialize true (Chip.dev demoSched noFaults).bus demoMac Mode.default leftovers) (by decide +kernel)) 3
example := C62_sizes (C62_advanced _ _ _ _ _ _ _ _ _ advanced_run 3)
example := C63_init (H := Unit) (Chip.dev demoSched noFaults).bus (calm_bus _) true demoMac ⟨10, 0, 0, 9⟩ ⟨0, 0, 0, 0⟩ ⟨255, 0, 0, 0⟩
  Mode.default leftovers

/-! ## C64, C65: closing, and resetting -/

example := C64_closed (n := 0) (by decide) demoUdp demoSocket rfl rfl demoConnected _
  (.inr (run_eq (r := Device.tcpClose (Chip.dev demoSched noFaults).bus demoSocket demoConnected) (by decide +kernel)))
def udpReset : Chip := (resetChip (Chip.dev emitSched noFaults).bus (udpConnected noFaults).2.bus).2
example := C65_partial (n := 0) (by decide) (udpConnected noFaults).1 _ (by decide +kernel) addrB (by decide +kernel) (udpConnected noFaults).2 _
  udpReset (run_eq (by decide +kernel))
  (run_eta (r := Device.udpConnect (Chip.dev emitSched noFaults).bus (.v4 addrB) ((udpConnected noFaults).1, { (udpConnected noFaults).2 with bus := udpReset }))
    (by decide +kernel))

/-! ## C66: refusals -/

example := C66_tcp_send (Chip.dev demoSched noFaults).bus 9 demoSocket [1] demoDevice _ .notConnected
  (run_eq (r := Device.tcpSend (Chip.dev demoSched noFaults).bus 9 demoSocket [1] demoDevice) (by decide +kernel)) nofun
example := C66_tcp_receive (Chip.dev demoSched noFaults).bus 9 demoSocket [0] _ demoDevice _ .notConnected
  (run_eta (r := Device.tcpReceive (Chip.dev demoSched noFaults).bus 9 demoSocket ([0], demoDevice)) (by decide +kernel)) nofun
/-- A send, the peer closes, another send is refused. -/
example := C66_tcp 0 (by decide) 100 demoRemote demoDevice _ powerUp_sizes closing_connected _ _ _
  (.send (H := Unit) (d := closingSent) 9 [8] (.err .notConnected)
    (.send (H := Unit) (d := closingConnected) (d' := closingSent) 9 [7] (.ok 1) .start
      (run_eq (r := Device.tcpSend closingBus 9 demoSocket [7] closingConnected) (by decide +kernel)) (.inl ⟨1, rfl⟩))
    (run_eq (r := Device.tcpSend closingBus 9 demoSocket [8] closingSent) (by decide +kernel)) (.inr ⟨_, rfl, nofun⟩))
/-- The chip gives up on every packet. -/
theorem drop_opened : UdpOpened dropSched noFaults 0 dropConnected.1 dropConnected.2.bus :=
  .connect (H := Unit) (u := demoUdp) (d := demoDevice) (.v4 addrA) (.new _ powerUp_sizes) (run_eq (by decide +kernel))
def dropBus : Bus Chip Unit := (Chip.dev dropSched noFaults).bus
example := C66_udp_send (n := 0) (by decide) drop_opened .start 9 [2] (.other .writeTimeout)
  (run_eq (r := Device.udpSend dropBus 9 dropConnected.1 [2] dropConnected.2) (by decide +kernel)) nofun
theorem drop_sent_to : Device.udpSendTo (Chip.dev dropSched noFaults).bus 9 (.v4 addrB) [1] (dropConnected.1, dropConnected.2) =
    (.err (.other .writeTimeout), ((Device.udpSendTo dropBus 9 (.v4 addrB) [1] dropConnected).2.1,
      (Device.udpSendTo dropBus 9 (.v4 addrB) [1] dropConnected).2.2)) :=
  run_eta (r := Device.udpSendTo dropBus 9 (.v4 addrB) [1] dropConnected) (by decide +kernel)
example := C66_udp_send_to (n := 0) (by decide) drop_opened .start 9 addrB [1] (.other .writeTimeout) drop_sent_to nofun
/-- Nothing has come. -/
example := C66_udp_receive (n := 0) (by decide) demo_opened .start 9 [0, 0] _ .wouldBlock
  (run_eta (r := Device.udpReceive (Chip.dev emitSched noFaults).bus 9 (udpConnected noFaults).1 ([0, 0], (udpConnected noFaults).2))
    (by decide +kernel)) nofun
example := C66_udp (n := 0) (by decide) drop_opened (.sendTo (u := dropConnected.1) (d := dropConnected.2) 9 addrB [1] _ .start drop_sent_to
  (.inr ⟨_, rfl, nofun⟩))
example := C66_destination (n := 0) (by decide) (sched := emitSched) (faults := noFaults) (c0 := Chip.powerUp) powerUp_sizes
  (.connect (H := Unit) (d := demoDevice) (.v4 addrA) (.ok ()) .start
    (run_eta (r := Device.udpConnect (Chip.dev emitSched noFaults).bus (.v4 addrA) (demoUdp, demoDevice)) (by decide +kernel)) (.inl ⟨(), rfl⟩))
  addrA (by decide +kernel)

/-! ## C61, C64: clients with several sockets -/

/-- The client of C61 sends on TCP socket 0 and closes UDP socket 1. -/
example := C61_tcp (sched := demoSched) (faults := noFaults) (w := Chip.powerUp) (host := ()) (c1 := twoSockets) (i := 0) (n := 0)
  (t := demoSocket) (fun _ _ => powerUp_sizes) (.step 9 _ (.step 9 _ .start nofun) nofun) (by decide +kernel) rfl 100 demoRemote
  (by decide +kernel) (TcpClient.elsewhere 9 (.udpClose 1) (.send (c0 := twoConnected) 9 0 demoSocket [7, 8, 9] 3 .start
    (by decide +kernel) rfl (by decide +kernel)) (fun i h hi hh => by
      cases hi
      have : some h = some (.udp (UdpSocket.new (Socket.new 1))) := by rw [← hh]; decide +kernel
      cases this
      decide))
/-- The client of C61 connects UDP socket 0, sends and closes TCP socket 1. -/
example := C61_udp (sched := emitSched) (faults := noFaults) (w := Chip.powerUp) (host := ()) (c1 := udpTwo) (c3 := udpTwo) (n := 0)
  (i := 0) (u := UdpSocket.new (Socket.new 0)) (o := .udpConnect 0 (.v4 addrA)) (fun _ _ => powerUp_sizes)
  (.step 9 _ (.step 9 _ .start nofun) nofun) (by decide +kernel) (by decide) .start (by decide +kernel) rfl 9
  ⟨rfl, by decide +kernel⟩ (UdpClient.elsewhere 9 (.tcpClose 1) (.call (log' := [⟨addrA, [1, 2, 3], true⟩]) (got' := [])
    (u := { UdpSocket.new (Socket.new 0) with destination := some addrA }) 9 0 (.udpSend 0 [1, 2, 3]) .start
    (by decide +kernel) rfl (.send _ addrA rfl (by decide +kernel))) (fun i h hi hh => by
      cases hi
      have : some h = some (.tcp ⟨Socket.new 1⟩) := by rw [← hh]; decide +kernel
      cases this
      decide))
/-- Three bytes wait for transmission when the socket is closed. -/
example := C64 (sched := lateSched) (faults := noFaults) (w := Chip.powerUp) (host := ()) (c1 := lateClient) (i := 0) (n := 0)
  (hd := .tcp demoSocket) (clientRun_run 99 _ (by simp) .start) (by decide +kernel) nofun rfl 9 (by decide +kernel)
  (.step 9 (.udpBind 0 99) .start (fun i h hi hh => by
      cases hi
      have : some h = some (.udp (UdpSocket.new (Socket.new 1))) := by rw [← hh]; decide +kernel
      cases this
      decide))

end W5500.Props
