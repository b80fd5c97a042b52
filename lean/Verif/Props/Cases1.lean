import Verif.Props.Wire
import Verif.Props.Codecs
import Verif.Props.Alloc
import Verif.Props.Bus
import Verif.Props.Sizes
import Verif.Props.Init
import Verif.Props.Registers
import Verif.Props.UdpOpen
import Verif.Props.UdpChip
import Verif.Props.Success

/-! Concrete cases, C02–C33: each theorem with hypotheses that has no `example` in its own module that applies it is
applied here to concrete arguments, with its hypotheses proved. -/

namespace W5500.Props
open W5500.Spec

/-! ## C02 … C05: frames on the wire -/

/-- Seven bytes to the interrupt mask register and on, on a bus that echoes. -/
example := C02_write true echo 1 0x24 [1, 2, 3, 4, 5, 6, 7] (by decide) [] ()
example := C02_read true echo 1 0x24 [0, 0, 0, 0, 0, 0, 0] (by decide) [] ()
/-- Eight bytes are a multiple of 4. -/
example := C03_read_partial (E := Unit) true (regFile 9 0) (0, fun _ a => a.setWidth 8) 3 0x10 [0, 0, 0, 0, 0, 0, 0, 0]
  (by decide) (by decide)
/-- Six bytes are not: the decoder is left out of step. -/
example := mt (C03_in_step_iff (E := Unit) true (regFile 9 0) (0, fun _ a => a.setWidth 8) 3 0x10 [0, 0, 0, 0, 0, 0]
  (by decide)).mp (by decide)
example := C04_no_register_written true (fun _ _ => 7) 0 5 [0xAA, 0xBB, 0xCC] (by decide)
example := C04_bytes_sent_partial true echo 0 5 [0xAA, 0xBB, 0xCC] (by decide) [] ()
/-- The last address, and data that runs past it. -/
example := C05_four_wire ((regFile 9 0).spiDevice : SpiDevice _ Unit) (fun _ _ => by
  dsimp only [ByteDev.spiDevice]
  split <;> nofun) (0, fun _ _ => 0) 2
  0xFFFF [1, 2]
example := C05_three_wire_partial true echo (fun _ _ => rfl) (fun _ _ => rfl) () 2 0xFFFE [1, 2]

/-! ## C06 … C13: codecs -/

example (f : ArpResponses) := C06_mode_injective ⟨.invokeInterrupt, .respond, .ppoe, f⟩ ⟨.invokeInterrupt, .respond, .ppoe, f⟩ rfl
example := C08_millis_exact_partial true 6553 (by decide)
example := C08_fails 6554 (by decide)
example := C09_operation_mode_partial 0xBF (by decide)
example := C09_fails 0xAF (by decide)
example := C09_device (p := ⟨0xBF⟩) (run_eq (r := Device.phyConfig (Chip.dev demoSched noFaults).bus Chip.powerUp) (by decide +kernel))
example := C11_mac_octets_injective (Mac.new 2 0xAB 0 0x7F 0x10 0xFF) ⟨2, 0xAB, 0, 0x7F, 0x10, 0xFF⟩ rfl
example := C11_mac_display_injective (Mac.new 2 0xAB 0 0x7F 0x10 0xFF) ⟨2, 0xAB, 0, 0x7F, 0x10, 0xFF⟩ rfl
example := C13_blocks_datasheet 7 (by decide) .tx
example := C13_blocks_disjoint 6 7 (by decide) (by decide) .rx .reg

/-! ## C16 … C21: allocation and traffic -/

/-- On a bus that works and on one that does not. -/
example := C16_close_result okBus (⟨(), ⟨(), 0xF7⟩⟩ : Device Unit Unit) 3 (by decide) (UdpSocket.new (Socket.new 3)) ⟨Socket.new 3⟩ rfl rfl
example := C16_close_result badBus (⟨(), ⟨(), 0xF7⟩⟩ : Device Unit Unit) 3 (by decide) (UdpSocket.new (Socket.new 3)) ⟨Socket.new 3⟩ rfl rfl
example := C18_reactivate_erasable okBus 5 (Client.initial () ()) [.udpSocket, .reactivate id, .tcpSocket] (by simp)
/-- Socket 0 is lost: its close failed. -/
example := C18_outstanding_exact badBus 5 () () [.udpSocket, .udpClose 0, .tcpSocket] 0 (by decide)
example := C20_common_only (failsAfter 100) 5 (Client.run (traced (failsAfter 100)) 5 (Client.initial ⟨0, []⟩ ()) [.udpSocket, .tcpSocket])
  (.common .version) rfl (by simp)
example := C21_history (failsAfter 100) 5 0 () [.udpSocket, .udpBind 0 80, .reactivate id, .common .version] (by simp)
example := C21_init_raw (H := Unit) (failsAfter 100) true 5 ⟨Socket.new 0⟩ rfl
example := C21_meaning (Ev.wr (E := Unit) 1 0x01 [0x10] (.ok ()))
  (C21_history (failsAfter 100) 5 0 () [.udpSocket, .udpBind 0 80] (by simp) _ (by decide +kernel))

/-! ## C22, C23: samples -/

example := C22_stable (v := 3) (Chip.dev demoSched noFaults).bus (Socket.new 0) 9
  (run_eq (r := Socket.getReceiveSize (Chip.dev demoSched noFaults).bus (Socket.new 0) 9 demoConnected.bus) (by decide +kernel))
/-- A counter that goes from 0x00FF to 0x0100. -/
def step256 (i : Nat) : U16 := if i < 2 then 0xFF else 0x100
theorem step256_mono (i j : Nat) (h : i ≤ j) : (step256 i).toNat ≤ (step256 j).toNat := by
  unfold step256
  split <;> split <;> first | omega | decide
example := C22_samples step256 step256_mono (t1 := 2) (t2 := 2) (t3 := 3) (t4 := 4) (by decide) (by decide) (by decide) (by decide)
example := C23_samples step256 step256_mono (t1 := 1) (t2 := 2) (by decide)
example := C22 (v := 3) 0 (by decide) 9 (c := demoConnected.bus) (.inr (.inl (by decide +kernel))) (by decide +kernel)
  (run_eq (r := Socket.getReceiveSize (Chip.dev demoSched noFaults).bus (Socket.new 0) 9 demoConnected.bus) (by decide +kernel))
/-- An acknowledgement comes between the two bytes. -/
def ackSched (t : Nat) : List (Nat × Act) := if t = 1 then [(0, .transmit 9), (0, .ack 9)] else []
def ackSent : Device Chip Unit :=
  (Device.tcpSend (Chip.dev (fun _ => []) noFaults).bus 9 demoSocket [1, 2, 3]
    { demoConnected with bus := { demoConnected.bus with socks := fun n => { demoConnected.bus.socks n with ir := 0x10 } } }).2
example := C23 (v := 0x0700) 0 (by decide) (c := { ackSent.bus with clock := 0 }) (.inr (.inl (by decide +kernel))) (by decide +kernel)
  (by decide +kernel) (run_eq (r := Socket.getTxFreeSize (Chip.dev ackSched noFaults).bus (Socket.new 0) { ackSent.bus with clock := 0 })
    (by decide +kernel))

/-! ## C25 … C30: initialisation and registers -/

/-- A chip with leftovers in its registers. -/
def leftovers : Chip := { Chip.powerUp with cmem := fun a => if a = 0x39 then 4 else 0x55 }
def demoMac : Mac := ⟨1, 2, 3, 4, 5, 6⟩
def advancedState : DeviceState Manual := ⟨⟨true, ⟨demoMac, ⟨10, 0, 0, 9⟩, ⟨0, 0, 0, 0⟩, ⟨255, 0, 0, 0⟩⟩,
  ⟨demoMac, ⟨10, 0, 0, 9⟩, ⟨0, 0, 0, 0⟩, ⟨255, 0, 0, 0⟩⟩⟩, 0xFF⟩
theorem advanced_run : Uninit.initializeAdvanced true (Chip.dev demoSched noFaults).bus demoMac ⟨10, 0, 0, 9⟩ ⟨0, 0, 0, 0⟩ ⟨255, 0, 0, 0⟩
    Mode.default leftovers = (.ok advancedState, (Uninit.initializeAdvanced true (Chip.dev demoSched noFaults).bus demoMac ⟨10, 0, 0, 9⟩
      ⟨0, 0, 0, 0⟩ ⟨255, 0, 0, 0⟩ Mode.default leftovers).2) := run_eq (by decide +kernel)
example := C25 _ _ _ _ _ _ _ _ _ advanced_run
example := C30_initialized _ _ _ _ _ _ _ _ _ advanced_run
example := C26_registers true demoMac 10 0 0 9 Mode.default leftovers _
  ⟨⟨true, ⟨demoMac, ⟨10, 0, 0, 9⟩, ⟨10, 0, 0, 1⟩, ⟨255, 255, 255, 0⟩⟩, ⟨demoMac, ⟨10, 0, 0, 9⟩, ⟨10, 0, 0, 1⟩, ⟨255, 255, 255, 0⟩⟩⟩, 0xFF⟩
  (run_eq (r := Uninit.initializeManual true (Chip.dev demoSched noFaults).bus demoMac ⟨10, 0, 0, 9⟩ Mode.default leftovers) (by decide +kernel))
example := C27_partial true demoMac Mode.default leftovers _ (DeviceState.new ⟨⟩)
  (run_eq (r := Uninit.initialize true (Chip.dev demoSched noFaults).bus demoMac Mode.default leftovers) (by decide +kernel))
/-- One refresh fails after some registers, the next one succeeds. -/
example := C28 ⟨1, 2, 3, 4, 5, 6⟩ ⟨10, 0, 0, 9⟩ ⟨10, 0, 0, 1⟩ ⟨255, 255, 0, 0⟩ Chip.powerUp brokenState.2 _ brokenState.1 _
  (by unfold Configured; decide +kernel) (.refresh (sched := demoSched) (faults := brokenWrite) _ .start rfl)
  (run_eq (r := Manual.refresh (Chip.dev demoSched brokenWrite).bus brokenState) (by decide +kernel)) _ _ .start
example := C29 demoMac leftovers _ ⟨Socket.new 0⟩
  (run_eq (r := Uninit.initializeMacraw (Chip.dev demoSched noFaults).bus demoMac leftovers) (by decide +kernel))

/-- Retry time 400 ms is set; setting the retry count breaks off. -/
example := C30 (sched := demoSched) (faults := brokenWrite) (c0 := Chip.powerUp) (K0 := Known.reset) (holds_reset rfl)
  (.retryCount 3 (.err ()) (.retryTime 4000 (.ok ()) .start (run_eq (by decide +kernel))) (run_eq (by decide +kernel)))

/-! ## C31 … C33: opening sockets -/

example := C31_connect_history_partial (H := Unit) (n := 0) (by decide) (sched := demoSched) (faults := noFaults) (c0 := Chip.powerUp)
  (d := demoDevice) powerUp_sizes .start addrA
  (run_eq' (r := Device.udpConnect (Chip.dev demoSched noFaults).bus (.v4 addrA) (demoUdp, demoDevice)) (by decide +kernel) rfl)
example := C31_bind (n := 3) (by decide) 5000 (UdpSocket.new (Socket.new 3)) _ rfl demoDevice _
  (run_eq' (r := Device.udpBind (Chip.dev demoSched noFaults).bus 5000 (UdpSocket.new (Socket.new 3), demoDevice)) (by decide +kernel) rfl)
example := C31_connect_partial (n := 3) (by decide) ⟨⟨10, 0, 0, 1⟩, 53⟩ (UdpSocket.new (Socket.new 3)) _ rfl demoDevice _
  (run_eq' (r := Device.udpConnect (Chip.dev quietSched noFaults).bus (.v4 ⟨⟨10, 0, 0, 1⟩, 53⟩) (UdpSocket.new (Socket.new 3), demoDevice))
    (by decide +kernel) rfl)
example := C33_default 7 (by decide)
example := C33_distinct 3 7 (by decide) (by decide) (by decide)
example := C33_tcp_script (Chip.dev demoSched noFaults).bus 3 (by decide) 9 ⟨⟨10, 0, 0, 1⟩, 80⟩ demoDevice
example := C33_tcp (n := 0) (by decide) 9 demoRemote demoDevice _
  (run_eq (r := Device.tcpConnect (Chip.dev demoSched noFaults).bus 9 demoSocket demoRemote demoDevice) (by decide +kernel))

end W5500.Props
