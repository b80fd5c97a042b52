import Verif.Props.Retry
/-! # C130: cases -/

namespace W5500.Props
open W5500.Spec Sock

theorem drain_confirming : Confirming drainSched 0 :=
  fun k => ⟨k + 16, by omega, 0x10, by decide, by unfold drainSched; rw [if_neg (by omega)]; simp⟩

/-! TCP: a `send` fails in its fourth transfer (the data), and a `receive` in its sixth (the data). -/

def halfSent : Device Chip Unit := (Device.tcpSend (Chip.dev drainSched (faultAt 15)).bus 9 demoSocket [7, 8, 9] drainConnected).2
theorem half_sent : Device.tcpSend (Chip.dev drainSched (faultAt 15)).bus 9 ⟨Socket.new (BitVec.ofNat 8 0)⟩ [7, 8, 9] drainConnected =
    (.err (.other ()), halfSent) := run_eq (r := Device.tcpSend (Chip.dev drainSched (faultAt 15)).bus 9 demoSocket [7, 8, 9] drainConnected) (by decide +kernel)
attribute [irreducible] halfSent

example : ∃ d'' : Device Chip Unit,
    Succeeds (fun fuel => sendWhole (Device.tcpSend (Chip.dev drainSched (faultAt 15)).bus fuel demoSocket) fuel [7, 8, 9]) halfSent () d'' ∧
      (d''.bus.socks 0).stream ++ (d''.bus.socks 0).pending = [7, 8, 9] := by
  obtain ⟨d'', h1, h2⟩ := C130_tcp_send (n := 0) (by decide) 100 9 demoRemote demoDevice drainConnected drainConnected halfSent powerUp_sizes drain_connect
    [] [] (.start (sched := drainSched) (faults := faultAt 15)) [7, 8, 9] (.other ()) half_sent (by decide +kernel) (faultAt_past (by decide +kernel))
    (fun k x _ h => drain_status k x h) (by decide +kernel) drain_confirming drain_draining
  rw [show (drainConnected.bus.socks 0).stream ++ (drainConnected.bus.socks 0).pending = [] by decide +kernel] at h2
  exact ⟨d'', h1, h2⟩

example := C130_tcp_send_early (n := 0) (by decide) 100 9 demoRemote demoDevice drainConnected drainConnected halfSent powerUp_sizes drain_connect
    [] [] (.start (sched := drainSched) (faults := faultAt 15)) [7, 8, 9] (.other ()) half_sent (by decide +kernel) (faultAt_past (by decide +kernel))
    (fun k x _ h => drain_status k x h) (by decide +kernel) drain_confirming drain_draining

def halfReceived : List U8 × Device Chip Unit := (Device.tcpReceive (Chip.dev demoSched (faultAt 18)).bus 9 demoSocket ([9, 9], demoArrived)).2
theorem half_received : Device.tcpReceive (Chip.dev demoSched (faultAt 18)).bus 9 ⟨Socket.new (BitVec.ofNat 8 0)⟩ ([9, 9], demoArrived) =
    (.err (.other ()), (halfReceived.1, halfReceived.2)) :=
  run_eta (r := Device.tcpReceive (Chip.dev demoSched (faultAt 18)).bus 9 demoSocket ([9, 9], demoArrived)) (by decide +kernel)
attribute [irreducible] halfReceived
theorem demo_connect : Device.tcpConnect (Chip.dev demoSched noFaults).bus 100 demoSocket demoRemote demoDevice = (.ok (), demoConnected) := by
  rw [demoConnected]
  exact run_eq (by decide +kernel)
theorem demo_arrives : TcpRun demoSched (faultAt 18) 0 demoConnected.bus [] [] demoArrived.bus := by
  rw [demoArrived]
  exact (later_tcp (.start (sched := demoSched))).past

/-- The next call brings the first two of three bytes. -/
example : ∃ (buf' : List U8) (d'' : Device Chip Unit),
    Succeeds (fun fuel => Device.tcpReceive (Chip.dev demoSched (faultAt 18)).bus fuel ⟨Socket.new (BitVec.ofNat 8 0)⟩) ([0, 0], halfReceived.2) 2
      (buf', d'') ∧ (d''.bus.socks 0).arrived = buf'.take 2 ++ (d''.bus.socks 0).queue := by
  obtain ⟨k, buf', d'', h1, h2, h3, _, before, h5, h6⟩ := C130_tcp_receive_early (n := 0) (by decide) 100 9 demoRemote demoDevice demoConnected demoArrived
    halfReceived.2 powerUp_sizes demo_connect [] [] demo_arrives [9, 9] _ (.other ()) half_received (by decide +kernel) (faultAt_past (by decide +kernel))
    (fun k x _ h => demo_status k x h) (by decide +kernel) [0, 0]
  have hk : k = 2 := Nat.le_antisymm h3 (Nat.le_trans (by decide +kernel) (h2 (by decide +kernel)))
  subst hk
  have hb : before = [] := by
    rw [show (demoArrived.bus.socks 0).arrived = [] ++ (demoArrived.bus.socks 0).queue by decide +kernel] at h5
    exact (List.append_cancel_right h5).symm
  subst hb
  exact ⟨buf', d'', h1, h6⟩

example := C130_tcp_receive (n := 0) (by decide) 100 9 demoRemote demoDevice demoConnected demoArrived halfReceived.2 powerUp_sizes demo_connect [] []
  demo_arrives [9, 9] _ (.other ()) half_received (by decide +kernel) (faultAt_past (by decide +kernel)) (fun k x _ h => demo_status k x h)
  (by decide +kernel) [0, 0]

/-! UDP: a `send` fails in its sixth transfer (the data), and a `receive` in its seventh (the data). -/

def halfUdp : Device Chip Unit := (Device.udpSend (Chip.dev emitSched (faultAt 13)).bus 9 (udpConnected noFaults).1 [7, 8, 9] (udpConnected noFaults).2).2
theorem half_udp : Device.udpSend (Chip.dev emitSched (faultAt 13)).bus 9 (udpConnected noFaults).1 [7, 8, 9] (udpConnected noFaults).2 =
    (.err (.other (.other ())), halfUdp) := run_eq (by decide +kernel)
attribute [irreducible] halfUdp

example : ∃ d'' : Device Chip Unit, Succeeds (fun fuel => Device.udpSend (Chip.dev emitSched (faultAt 13)).bus fuel (udpConnected noFaults).1 [7, 8, 9])
    halfUdp () d'' ∧ (d''.bus.socks 0).packets = [⟨[10, 0, 0, 1], [0, 53], [7, 8, 9], true⟩] := by
  obtain ⟨d'', h1, h2⟩ := C130_udp_send_early (n := 0) (by decide) demo_opened (.start (sched := emitSched) (faults := faultAt 13)) 9 addrA (by decide +kernel)
    [7, 8, 9] _ half_udp (by decide +kernel) (faultAt_past (by decide +kernel)) (fun k x _ h => emit_status (p := (· = 0x22)) k x h)
    (fun k _ => emit_lossless k) emit_emitting (by decide +kernel) (by unfold Sock.NoTimeout; decide +kernel)
  exact ⟨d'', h1, h2.trans (by decide +kernel)⟩

example := C130_udp_send (n := 0) (by decide) demo_opened (.start (sched := emitSched) (faults := faultAt 13)) 9 addrA (by decide +kernel)
    [7, 8, 9] _ half_udp (by unfold Drained; decide +kernel) (faultAt_past (by decide +kernel)) (fun k x _ h => emit_status (p := (· = 0x22)) k x h)
    (fun k _ => emit_lossless k) emit_emitting (by decide +kernel) (by unfold Sock.NoTimeout; decide +kernel)

def halfDgram : List U8 × Device Chip Unit :=
  (Device.udpReceive (Chip.dev (arriveSched [dgramA, dgramB]) (faultAt 14)).bus 9 (arriveBound [dgramA, dgramB]).1 ([9, 9], arrived)).2
theorem half_dgram : Device.udpReceive (Chip.dev (arriveSched [dgramA, dgramB]) (faultAt 14)).bus 9 (arriveBound [dgramA, dgramB]).1 ([9, 9], arrived) =
    (.err (.other (.other ())), (halfDgram.1, halfDgram.2)) :=
  run_eta (r := Device.udpReceive (Chip.dev (arriveSched [dgramA, dgramB]) (faultAt 14)).bus 9 (arriveBound [dgramA, dgramB]).1 ([9, 9], arrived))
    (by decide +kernel)
attribute [irreducible] halfDgram
theorem arrive_opened : UdpOpened (arriveSched [dgramA, dgramB]) noFaults 0 (arriveBound [dgramA, dgramB]).1 (arriveBound [dgramA, dgramB]).2.bus :=
  .bind (H := Unit) (u := demoUdp) (d := demoDevice) 5000 (.new _ powerUp_sizes) (run_eq (by decide +kernel))
theorem arrive_arrives : UdpRun (arriveSched [dgramA, dgramB]) (faultAt 14) 0 (arriveBound [dgramA, dgramB]).1 (arriveBound [dgramA, dgramB]).2.bus [] []
    (arriveBound [dgramA, dgramB]).1 arrived.bus := by
  rw [arrived]
  exact (later_udp (.start (sched := arriveSched [dgramA, dgramB]))).past

example := C130_udp_receive_early (n := 0) (by decide) arrive_opened arrive_arrives dgramA [dgramB] ⟨by simp [Dgram.Wf, dgramA, dgramB], by decide +kernel⟩
  (by decide +kernel) 9 [9, 9] _ _ half_dgram (by decide +kernel) (faultAt_past (by decide +kernel))
  (fun k x _ h => by unfold arriveSched at h; split at h <;> simp at h) (by decide +kernel) [0, 0, 0, 0] nofun (by decide)

example := C130_udp_receive (n := 0) (by decide) arrive_opened arrive_arrives dgramA [dgramB] ⟨by simp [Dgram.Wf, dgramA, dgramB], by decide +kernel⟩
  9 [9, 9] _ _ half_dgram (by decide +kernel) (by decide +kernel) (faultAt_past (by decide +kernel))
  (fun k x _ h => by unfold arriveSched at h; split at h <;> simp at h) (by decide +kernel) [0, 0, 0, 0] nofun (by decide)

/-! MACRAW: `write_frame` fails in its third transfer, and `read_frame` in its fourth (the length). -/

def halfWritten : Chip := (rawDemo.writeFrame (Chip.dev frameSched (faultAt 20)).bus 9 [7, 8] (rawChip noFaults)).2
theorem half_written : rawDemo.writeFrame (Chip.dev frameSched (faultAt 20)).bus 9 [7, 8] (rawChip noFaults) = (.err (), halfWritten) :=
  run_eq (r := rawDemo.writeFrame (Chip.dev frameSched (faultAt 20)).bus 9 [7, 8] (rawChip noFaults)) (by decide +kernel)
attribute [irreducible] halfWritten
theorem frame_lossless (c : Chip) : LosslessFrom frameSched 0 c := fun k _ hk => by unfold frameSched at hk; split at hk <;> simp at hk
theorem frame_emitting : Emitting frameSched 0 := fun k => ⟨k, Nat.le_refl _, true, by unfold frameSched; split <;> simp⟩
theorem frame_confirming : Confirming frameSched 0 := fun k => ⟨k, Nat.le_refl _, 0x10, by decide, by unfold frameSched; split <;> simp⟩

example : ∃ c'', Succeeds (fun fuel => rawDemo.writeFrame (Chip.dev frameSched (faultAt 20)).bus fuel [7, 8]) halfWritten 2 c'' ∧
    (c''.socks 0).packets.map (·.data) = [[7, 8]] := by
  obtain ⟨c'', h1, ip, port, h2⟩ := C130_raw_write_early rawDemo_opened (.start (sched := frameSched) (faults := faultAt 20)) 9 [7, 8] () half_written
    (by decide +kernel) (faultAt_past (by decide +kernel)) (frame_lossless _) frame_emitting frame_confirming (by simp) (by simp)
  refine ⟨c'', h1, ?_⟩
  rw [h2, show ((rawChip noFaults).socks 0).packets = [] by decide +kernel]
  rfl

example := C130_raw_write rawDemo_opened (.start (sched := frameSched) (faults := faultAt 20)) 9 [7, 8] () half_written
  (by unfold Quiet Drained; decide +kernel) (faultAt_past (by decide +kernel)) (frame_lossless _) frame_emitting frame_confirming (by simp) (by simp)

def halfFrame : List U8 × Chip := (rawDemo.readFrame (Chip.dev frameSched (faultAt 22)).bus 9 ([9, 9], rawArrived)).2
theorem half_frame : rawDemo.readFrame (Chip.dev frameSched (faultAt 22)).bus 9 ([9, 9], rawArrived) = (.err (), (halfFrame.1, halfFrame.2)) := by
  unfold halfFrame
  exact run_eta (by decide +kernel)
attribute [irreducible] halfFrame
theorem frame_arrives : RawRun frameSched (faultAt 22) rawDemo (rawChip noFaults) [] [] rawArrived := (later_raw (.start (sched := frameSched))).past

example := C130_raw_read_early rawDemo_opened frame_arrives [1, 2, 3, 4] [[5, 6]] ⟨by simp, by decide +kernel⟩ 9 [9, 9] _ () half_frame (by decide +kernel)
  (faultAt_past (by decide +kernel)) [0, 0, 0, 0, 0]

example := C130_raw_read rawDemo_opened frame_arrives [1, 2, 3, 4] [[5, 6]] ⟨by simp, by decide +kernel⟩ 9 [9, 9] _ () half_frame (by decide +kernel)
  (faultAt_past (by decide +kernel)) [0, 0, 0, 0, 0]

end W5500.Props
