import Verif.Props.Cases4
import Verif.Props.Disclosure
import Verif.Props.Cost
import Verif.Props.Empty
import Verif.Props.ThreeWireInit
import Verif.Props.Told

/-! Concrete cases, C79–C84: see `Props/Cases1.lean`. -/

namespace W5500.Props
open W5500.Spec

/-! ## C79: what `receive` stores -/

theorem demo_arrived : TcpRun demoSched noFaults 0 demoConnected.bus [] [] demoArrived.bus := by
  have h := later_tcp (TcpRun.start (sched := demoSched) (c := demoConnected.bus))
  rw [demoArrived]
  exact h
example := C79_tcp 0 (by decide) 100 9 demoRemote demoDevice demoConnected demoArrived _ powerUp_sizes demo_connected [] [] demo_arrived
  [0, 0, 0, 0] _ 3 demo_taken
example := C79_raw rawDemo_opened (later_raw .start) [[1, 2, 3, 4], [5, 6]] ⟨by simp, by decide +kernel⟩ 9 [0, 0, 0] _ 3
  (run_eta (r := rawDemo.readFrame (Chip.dev frameSched noFaults).bus 9 ([0, 0, 0], rawArrived)) (by decide +kernel))
/-- The buffer is as long as the payload. -/
example := C79_udp_partial (n := 0) (by decide) one_opened one_run 9 [0, 0] _ 2 (.v4 addrA)
  (run_eq (r := Device.udpReceive (Chip.dev (arriveSched [dgramA]) noFaults).bus 9 (arriveBound [dgramA]).1 ([0, 0], oneArrived))
    (by decide +kernel))
example := C79_udp_stored 0 (by decide) secretBound.1 (by decide +kernel) 9 (List.replicate 10 0) _ secretBound.2 _
  (by unfold Sock.GoodSize; decide +kernel) (by
    intro k hk a ha
    rw [show secretBound.2.bus.clock = 53 by decide +kernel] at hk
    unfold secretSched at ha
    rw [if_neg (by omega), if_neg (by omega)] at ha
    exact nomatch ha) 9 (.v4 ⟨⟨10, 0, 0, 2⟩, 54⟩)
  (run_eta (r := Device.udpReceive (Chip.dev secretSched noFaults).bus 9 secretBound.1 (List.replicate 10 0, secretBound.2))
    (by decide +kernel))

/-! ## C80: what calls cost -/

example := C80_tcp (H := Unit) (Meter.chip_on demoSched (E := Unit) noFaults) 9 demoSocket demoRemote [1, 2] [0] demoDevice
example := C80_tcp (H := Unit) (Meter.log_on (Chip.dev demoSched noFaults).bus) 9 demoSocket demoRemote [1, 2] [0]
  ⟨⟨Chip.powerUp, []⟩, demoDevice.state⟩
example := C80_udp (H := Unit) (Meter.chip_on emitSched (E := Unit) noFaults) 9 demoUdp (.v4 addrA) 5000 [1, 2] [0] demoDevice
example := C80_raw (Meter.chip_on frameSched (E := Unit) noFaults) 9 rawDemo [1, 2] [0] 4 Chip.powerUp
example := C80_init (Meter.chip_on frameSched (E := Unit) noFaults) true ⟨2, 0, 0, 0, 0, 1⟩ ⟨10, 0, 0, 9⟩ ⟨10, 0, 0, 1⟩ ⟨255, 255, 255, 0⟩
  Mode.default Chip.powerUp
example := C80_plain (Meter.chip_on frameSched (E := Unit) noFaults) Mode.default ⟨0x07D0⟩ 8 Chip.powerUp
example := C80_receive (n := 0) (by decide) (sched := demoSched) (faults := noFaults) 9 demoSocket rfl demoUdp rfl rawDemo rfl [0] demoDevice
  (by decide +kernel)

/-! ## C81, C83: empty messages -/

example := C81_send_ok (Chip.dev emitSched noFaults).bus 8 (udpConnected noFaults).1 (udpConnected noFaults).2 _ _ 8 0 (by decide)
  (by decide +kernel)
  (run_eq' (r := (Chip.dev emitSched noFaults).bus.readFrame (udpConnected noFaults).2.bus (udpConnected noFaults).1.socket.register 0x03 [0])
    (by decide +kernel) (by decide +kernel))
  (run_eq' (r := (Chip.dev emitSched noFaults).bus.readFrame _ (udpConnected noFaults).1.socket.register 0x20 [0, 0])
    (by decide +kernel) (by decide +kernel))
def emptyDgram : Dgram := ⟨[10, 0, 0, 1], [0, 53], []⟩
/-- An empty datagram and another one have arrived. -/
def emptyArrived : Device Chip Unit :=
  ⟨later (arriveSched [emptyDgram, dgramB]) (arriveBound [emptyDgram, dgramB]).2.bus, DeviceState.new ()⟩
def emptyReceived : Res (NbError (UdpSocketError Unit)) (Nat × SockAddr) × List U8 × Device Chip Unit :=
  Device.udpReceive (Chip.dev (arriveSched [emptyDgram, dgramB]) noFaults).bus 9 (arriveBound [emptyDgram, dgramB]).1
    (List.replicate 30 0, emptyArrived)
theorem empty_run : UdpRun (arriveSched [emptyDgram, dgramB]) noFaults 0 (arriveBound [emptyDgram, dgramB]).1
    (arriveBound [emptyDgram, dgramB]).2.bus [] [] (arriveBound [emptyDgram, dgramB]).1 emptyArrived.bus := by
  have h := later_udp (UdpRun.start (u0 := (arriveBound [emptyDgram, dgramB]).1) (c0 := (arriveBound [emptyDgram, dgramB]).2.bus)
    (sched := arriveSched [emptyDgram, dgramB]))
  rw [emptyArrived]
  exact h
example := C81_partial (n := 0) (by decide) (arriveBound_opened [emptyDgram, dgramB]) empty_run 9 (List.replicate 30 0) _ 17
  (.v4 ⟨⟨10, 0, 0, 1⟩, 53⟩) (run_eta (r := emptyReceived) (by decide +kernel)) emptyDgram [dgramB]
  ⟨by simp [Dgram.Wf, emptyDgram, dgramB], by decide +kernel⟩ rfl
/-- All bytes have been read; a further call gets none. -/
example := C83_tcp (Chip.dev demoSched noFaults).bus 9 demoSocket [7, 7] _ demoTaken.2.2 _
  (run_eta (r := Device.tcpReceive (Chip.dev demoSched noFaults).bus 9 demoSocket ([7, 7], demoTaken.2.2)) (a := .ok 0) (by decide +kernel))

/-! ## C82: initialisation over three and four wires -/

def leftover : Chip := { Chip.powerUp with cmem := fun a => if a = 0x39 then 4 else 0x55 }
example := C82_partial (sched := demoSched) (faults := noFaults) true ⟨1, 2, 3, 4, 5, 6⟩ ⟨10, 0, 0, 9⟩ ⟨10, 0, 0, 1⟩ ⟨255, 0, 0, 0⟩ Mode.default
  leftover _ (.new (⟨true, ⟨⟨1, 2, 3, 4, 5, 6⟩, ⟨10, 0, 0, 9⟩, ⟨10, 0, 0, 1⟩, ⟨255, 0, 0, 0⟩⟩,
    ⟨⟨1, 2, 3, 4, 5, 6⟩, ⟨10, 0, 0, 9⟩, ⟨10, 0, 0, 1⟩, ⟨255, 0, 0, 0⟩⟩⟩))
  (run_eq (r := Uninit.initializeAdvanced true (FourWire.bus (Chip.dev demoSched noFaults).spiDevice) ⟨1, 2, 3, 4, 5, 6⟩ ⟨10, 0, 0, 9⟩
    ⟨10, 0, 0, 1⟩ ⟨255, 0, 0, 0⟩ Mode.default leftover) (by decide +kernel))
example := C82_manual_partial (sched := demoSched) (faults := noFaults) true ⟨1, 2, 3, 4, 5, 6⟩ 10 0 0 9 Mode.default
  leftover _ (.new (⟨true, ⟨⟨1, 2, 3, 4, 5, 6⟩, ⟨10, 0, 0, 9⟩, ⟨10, 0, 0, 1⟩, ⟨255, 255, 255, 0⟩⟩,
    ⟨⟨1, 2, 3, 4, 5, 6⟩, ⟨10, 0, 0, 9⟩, ⟨10, 0, 0, 1⟩, ⟨255, 255, 255, 0⟩⟩⟩))
  (run_eq (r := Uninit.initializeManual true (FourWire.bus (Chip.dev demoSched noFaults).spiDevice) ⟨1, 2, 3, 4, 5, 6⟩ ⟨10, 0, 0, 9⟩
    Mode.default leftover) (by decide +kernel))
example := C82_initialize_partial (sched := demoSched) (faults := noFaults) true ⟨1, 2, 3, 4, 5, 6⟩ Mode.default
  leftover _ (.new (.new ⟨1, 2, 3, 4, 5, 6⟩))
  (run_eq (r := Uninit.initialize true (FourWire.bus (Chip.dev demoSched noFaults).spiDevice) ⟨1, 2, 3, 4, 5, 6⟩ Mode.default leftover)
    (by decide +kernel))
def wiredChip : Nat × (BitVec 5 → U16 → U8) := (0, fun b a => if b = 0 ∧ a = 0x39 then 4 else 0x55)
example := C82_dead (E := Unit) (D := regFile 0 0) true true ⟨2, 0, 0, 0, 0, 1⟩ ⟨192, 168, 0, 9⟩ ⟨192, 168, 0, 1⟩ ⟨255, 255, 255, 0⟩ Mode.default
  wiredChip (fun _ => by decide +kernel) (by decide) (by decide)
example := C82_manual_dead (E := Unit) (D := regFile 0 0) true true ⟨2, 0, 0, 0, 0, 1⟩ 192 168 0 9 Mode.default
  wiredChip (fun _ => by decide +kernel) (by decide)
example := C82_stray (E := Unit) (D := regFile 0 0) true true ⟨2, 0, 0, 0, 0, 1⟩ ⟨10, 0, 20, 9⟩ ⟨10, 0, 20, 1⟩ ⟨255, 255, 255, 0⟩ Mode.default
  wiredChip (fun _ => by decide +kernel) (by decide)

/-! ## C84: what the socket was told -/

theorem told_sentTo : UdpTold emitSched noFaults 0 (some addrB) 99 true toldSentTo.1 toldSentTo.2.bus := by
  have h1 : UdpTold emitSched noFaults 0 none 99 true toldBound.1 toldBound.2.bus :=
    .bind (H := Unit) (d := demoDevice) 99 (.ok ()) (.new _ powerUp_sizes) (run_eq (by decide +kernel)) (.inl ⟨(), rfl⟩)
  have h2 : UdpTold emitSched noFaults 0 (some addrA) 99 true toldConnected.1 toldConnected.2.bus :=
    .connect (.v4 addrA) (.ok ()) h1 (run_eq (by decide +kernel)) (.inl ⟨(), rfl⟩)
  have h3 : UdpTold emitSched noFaults 0 (some addrA) 99 true toldConnected.1 toldSent.bus :=
    .send 9 [1] (.ok ()) h2 (run_eq (by decide +kernel)) (.inl ⟨(), rfl⟩)
  exact .sendTo 9 (.v4 addrB) [2] (.ok ()) h3 (run_eq (by decide +kernel)) (.inl ⟨(), rfl⟩)
example := C84_told (by decide) told_sentTo
example := C84_send (n := 0) (by decide) told_sentTo 9 [3] (.ok ())
  (run_eq (r := Device.udpSend (Chip.dev emitSched noFaults).bus 9 toldSentTo.1 [3] toldSentTo.2) (by decide +kernel))
example := C84_send_to (n := 0) (by decide) told_sentTo (a := addrA) 9 [3] (.ok ())
  (run_eta (r := Device.udpSendTo (Chip.dev emitSched noFaults).bus 9 (.v4 addrA) [3] (toldSentTo.1, toldSentTo.2)) (by decide +kernel))

end W5500.Props
