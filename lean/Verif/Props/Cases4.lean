import Verif.Props.Cases3
import Verif.Props.Outcome
import Verif.Props.Blame
import Verif.Props.EndToEnd
import Verif.Props.Relate
import Verif.Props.Success
import Verif.Props.Wakeup
import Verif.Props.Sendok

/-! Concrete cases, C67–C78: see `Props/Cases1.lean`. -/

namespace W5500.Props
open W5500.Spec

/-! ## C67, C69: rounds and outcomes -/

example := (C67_rounds (Chip.dev demoSched noFaults).bus (k := 100) (l := 200) (by decide) demoSocket demoUdp rawDemo demoRemote [] Chip.powerUp
  demoDevice []).1 (by decide +kernel)
example := (C67_udp (sched := emitSched) (faults := noFaults) (n := 0) (by decide) demoUdp rfl demoDevice (by decide +kernel) [0]).1 3000
  (by decide +kernel)
example := (C67_raw (E := Unit) (sched := frameSched) (faults := noFaults) (n := 0) (by decide) rawDemo rfl Chip.powerUp (by decide +kernel) [0]).1 3000
  (by decide +kernel)

theorem prompt_opened : UdpOpened promptSched noFaults 0 promptConnected.1 promptConnected.2.bus :=
  .connect (H := Unit) (u := demoUdp) (d := demoDevice) (.v4 addrA) (.new _ powerUp_sizes)
    (run_eq (r := Device.udpConnect (Chip.dev promptSched noFaults).bus (.v4 addrA) (demoUdp, demoDevice)) (by decide +kernel))
theorem prompt_silent : (promptConnected.2.bus.socks 0).Silent := by rintro i (rfl | rfl) <;> decide +kernel
theorem prompt_sent : Device.udpSendTo (Chip.dev promptSched noFaults).bus 9 (.v4 addrB) [1] promptConnected = (.ok (),
    (Device.udpSendTo (Chip.dev promptSched noFaults).bus 9 (.v4 addrB) [1] promptConnected).2) :=
  run_eq (by decide +kernel)

example := C69_send_partial (n := 0) (by decide) prompt_demo prompt_opened prompt_silent .start 9 [1] (.ok ())
  (run_eq (r := Device.udpSend (Chip.dev promptSched noFaults).bus 9 promptConnected.1 [1] promptConnected.2) (by decide +kernel))
  (.inl ⟨_, rfl⟩)
example := C69_send_to_partial (n := 0) (by decide) prompt_demo prompt_opened prompt_silent .start 9 addrB [1] (.ok ()) prompt_sent
  (.inl ⟨_, rfl⟩)
example := C69_ok_partial (n := 0) (by decide) prompt_demo prompt_opened prompt_silent .start 9 addrB [1] prompt_sent

/-! ## C70: each kind of call fails -/

example := C70_udp_send (run_eq (r := Device.udpSend (blameBus 0x22 8 9 0) 5 blameUdp [1] blameDevice)
  (a := .err (.other .writeTimeout)) (by decide +kernel))
example := C70_udp_send_to (a := addrA) (run_eta (r := Device.udpSendTo (blameBus 0x22 0 0 0) 5 (.v4 addrA) [1] (blameUdp, blameDevice))
  (a := .err (.other .bufferFull)) (by decide +kernel))
example := C70_udp_receive (run_eta (r := Device.udpReceive (blameBus 0x22 4 9 9) 5 blameUdp ([], blameDevice))
  (a := .err (.other .bufferOverflow)) (by decide +kernel))
example := C70_udp_open (.inr ⟨7, run_eta (r := Device.udpBind (H := Unit) (traced badBus) 7 (blameUdp, ⟨⟨(), []⟩, ⟨(), 0xFF⟩⟩))
  (a := .err (.other ())) (by decide +kernel)⟩)
example := C70_set_port (run_eta (r := UdpSocket.setPort (traced badBus) 7 (blameUdp, ⟨(), []⟩)) (a := .err (.other ())) (by decide +kernel))
example := C70_tcp_connect (run_eq (r := Device.tcpConnect (blameBus 0x42 0 9 0) 5 ⟨.new 2⟩ (.v4 addrA) blameDevice)
  (a := .err .unsupportedMode) (by decide +kernel))
example := C70_tcp_send (run_eq (r := Device.tcpSend (blameBus 0x1C 0 9 0) 5 ⟨.new 2⟩ [1] blameDevice) (a := .err .notConnected)
  (by decide +kernel))
example := C70_tcp_receive (run_eta (r := Device.tcpReceive (blameBus 0x1C 0 9 0) 5 ⟨.new 2⟩ ([1], blameDevice)) (a := .err .notConnected)
  (by decide +kernel))

/-! ## C71: the repertoire -/

example := C71_history (Chip.dev emitSched noFaults).bus 9 Chip.powerUp () [.udpSocket, .udpConnect 0 (.v4 addrA), .reactivate id]
  (by simp)
example := C71_init_raw (H := Unit) (Chip.dev emitSched noFaults).bus true 9 rawDemo rfl
example := C71_commands (.wr 0x0D 0x01 [0x20] (.ok ()) : Ev Unit) ⟨fun _ => by unfold sockValue; decide, nofun⟩ 0x0D [0x20] (.ok ()) (by decide) rfl

/-! ## C72: two programs and a network -/

theorem echo_net : ∀ bs, Since (echoConnected.dev.bus.socks 0) (echoDone.dev.bus.socks 0) bs →
    bs = (echoDone.dev.bus.socks 0).stream.drop (echoConnected.dev.bus.socks 0).stream.length := by
  intro bs ⟨old, h1, h2⟩
  have e1 : (echoConnected.dev.bus.socks 0).arrived = [] := by decide +kernel
  have e2 : (echoDone.dev.bus.socks 0).arrived = [7, 8, 9] := by decide +kernel
  have e3 : (echoDone.dev.bus.socks 0).stream.drop (echoConnected.dev.bus.socks 0).stream.length = [7, 8, 9] := by decide +kernel
  rw [e1] at h1
  obtain ⟨rfl, _⟩ := List.append_eq_nil_iff.mp h1.symm
  rw [e2, List.nil_append] at h2
  rw [e3, ← h2]
example := C72_tcp echo_end echo_end (fun bs h => echo_net bs h ▸ List.prefix_refl _)

/-- The program of C72 that reads all three bytes. -/
def echoAll : Client Chip Unit := echoSent.step (Chip.dev echoSched noFaults).bus 9 (.tcpReceive 0 [0, 0, 0])
theorem echo_all : TcpEnd (echoConnected.dev.bus.socks 0) [7, 8, 9] [7, 8, 9] (echoAll.dev.bus.socks 0) := by
  have h1 : TcpClient echoSched noFaults 0 echoConnected [7, 8, 9] [] echoSent :=
    TcpClient.send (sched := echoSched) (faults := noFaults) (n := 0) (c0 := echoConnected) 9 0 demoSocket [7, 8, 9] 3 .start
      (by decide +kernel) rfl (by decide +kernel)
  have h2 : TcpClient echoSched noFaults 0 echoConnected [7, 8, 9] [7, 8, 9] echoAll :=
    TcpClient.receive 9 0 demoSocket [0, 0, 0] [7, 8, 9] 3 h1 (by decide +kernel) rfl (by decide +kernel) (by decide +kernel)
  have h0 : ClientRun echoSched noFaults (Client.initial oddChip ()) echoOpen := .step 9 .tcpSocket .start nofun
  exact .mk (fun _ _ => powerUp_sizes) h0 (n := 0) (c1 := echoOpen) (c := echoAll) (i := 0) (t := demoSocket) (by decide +kernel) rfl 100 demoRemote
    (by decide +kernel) h2 (by rw [echoConnected, echoBus]) rfl
example := C72_tcp_all echo_all echo_all (fun bs ⟨old, h1, h2⟩ => by
  have e1 : (echoConnected.dev.bus.socks 0).arrived = [] := by decide +kernel
  have e2 : (echoAll.dev.bus.socks 0).arrived = [7, 8, 9] := by decide +kernel
  have e3 : (echoAll.dev.bus.socks 0).stream.drop (echoConnected.dev.bus.socks 0).stream.length = [7, 8, 9] := by decide +kernel
  rw [e1] at h1
  obtain ⟨rfl, _⟩ := List.append_eq_nil_iff.mp h1.symm
  rw [e2, List.nil_append] at h2
  rw [e3, ← h2]) (by decide +kernel) (by decide +kernel)

theorem talk_emitted : (emitted addrB (talkOpen.dev.bus.socks 0) (talkDone.dev.bus.socks 0)) =
    [⟨[10, 9, 9, 9], [0, 99], [7, 8], true⟩] := by decide +kernel
theorem talk_unforged : Unforged addrA addrB (talkOpen.dev.bus.socks 0) (talkDone.dev.bus.socks 0) (hearOpen.dev.bus.socks 0)
    (hearDone.dev.bus.socks 0) := by
  intro ds hw h d hd _
  cases hear_since hw h
  cases List.mem_singleton.mp hd
  rw [talk_emitted]
  exact ⟨_, List.mem_singleton.mpr rfl, rfl⟩
example := C72_udp talk_end hear_end addrA addrB talk_unforged
example := C72_udp_whole talk_end hear_end addrA addrB talk_unforged
  (fun e h => by rw [show (talkOpen.dev.bus.socks 0).txSize = 2048 by decide +kernel]; cases List.mem_singleton.mp h; decide)
example := C72_udp_order talk_end hear_end addrA addrB (fun ds hw h => by
  cases hear_since hw h
  rw [talk_emitted]
  decide)

theorem wire_since (fs : List (List U8)) (hf : ∀ f ∈ fs, f.length + 2 < 65536)
    (h : Since (wireOpen.socks 0) (wireRead.2.2.socks 0) (encFrames fs)) : fs = [wireFrame] := by
  obtain ⟨old, h1, h2⟩ := h
  have e1 : (wireOpen.socks 0).arrived = (wireOpen.socks 0).queue := by decide +kernel
  have e2 : (wireRead.2.2.socks 0).arrived = encFrames [wireFrame] := by decide +kernel
  rw [e1] at h1
  have : old = [] := List.append_left_eq_self.mp h1.symm
  rw [this, e2, List.nil_append] at h2
  exact C55_unambiguous _ _ hf (by decide) h2.symm
theorem wire_packets : ((wireRead.2.2.socks 0).packets.drop (wireOpen.socks 0).packets.length) =
    [⟨[0, 0, 0, 0], [0, 0], wireFrame, true⟩] := by decide +kernel
example := C72_raw wire_end wire_end [2, 0, 0, 0, 0, 1] (fun fs hf h => by
  cases wire_since fs hf h
  intro f hf _
  cases List.mem_singleton.mp hf
  rw [wire_packets]
  exact ⟨_, List.mem_singleton.mpr rfl, List.prefix_refl _⟩)
example := C72_raw_order wire_end wire_end [2, 0, 0, 0, 0, 1] (fun fs hf h => by
  cases wire_since fs hf h
  rw [wire_packets]
  decide)

/-! ## C73, C75: related buses, independent sockets -/

example := C73 (alike_traced promptBus) (w := ⟨Chip.powerUp, []⟩) rfl () (demoProgram_like (p := [1, 2]) rfl)
example := C73_init (alike_traced promptBus) (w := ⟨Chip.powerUp, []⟩) rfl true ⟨1, 2, 3, 4, 5, 6⟩ ⟨10, 0, 0, 9⟩ ⟨10, 0, 0, 1⟩ ⟨255, 255, 255, 0⟩
  Mode.default
example := C73_raw (alike_traced promptBus) (w := ⟨Chip.powerUp, []⟩) rfl rawDemo 9 [0, 0] [1, 2, 3] 4
example := C75 (separate_independent fun _ => (Chip.dev emitSched noFaults).bus) (fun _ => Chip.powerUp) ()
  [(9, .udpSocket), (9, .udpSocket)] 9 9 (o := .udpConnect 0 (.v4 addrA)) (o' := .udpBind 1 5000) (i := 0) (j := 1) trivial rfl trivial rfl
  (by decide)

/-! ## C76: calls that succeed -/

example := C76_udp_sends (n := 0) (by decide) (fun _ => rfl) emit_status emit_emitting emit_lossless demo_opened addrA (by decide +kernel)
  [[1, 2], [3]] .start (d := (udpConnected noFaults).2) (by decide +kernel) ⟨by decide +kernel, by decide +kernel⟩
example := C76_udp_connect (n := 0) (faults := noFaults) (by decide) (fun _ => rfl) emit_status emit_lossless demoUdp rfl demoDevice
  (by decide +kernel) (by decide +kernel) addrA
example := C76_udp_bind (n := 0) (faults := noFaults) (by decide) (fun _ => rfl) emit_lossless demoUdp rfl demoDevice
  (by decide +kernel) (by decide +kernel) 5000
example := C76_plain (H := Unit) (Chip.dev emitSched noFaults).bus (healthy_chip fun _ => rfl) Chip.powerUp

/-! ## C77, C78: announcements -/

theorem arriveBound_opened (ds : List Dgram) : UdpOpened (arriveSched ds) noFaults 0 (arriveBound ds).1 (arriveBound ds).2.bus := by
  obtain ⟨d', h, _⟩ := C76_udp_bind (n := 0) (sched := arriveSched ds) (faults := noFaults) (by decide) (fun _ => rfl)
    (fun k => by unfold arriveSched; split <;> simp) demoUdp rfl demoDevice (by decide +kernel) (by decide +kernel) 5000
  exact .bind (H := Unit) (u := demoUdp) (d := demoDevice) 5000 (.new _ powerUp_sizes)
    (run_eq (r := Device.udpBind (Chip.dev (arriveSched ds) noFaults).bus 5000 (demoUdp, demoDevice)) (by rw [h]))
def oneReceived : Res (NbError (UdpSocketError Unit)) (Nat × SockAddr) × List U8 × Device Chip Unit :=
  Device.udpReceive (Chip.dev (arriveSched [dgramA]) noFaults).bus 9 (arriveBound [dgramA]).1 ([0, 0], (arriveBound [dgramA]).2)
theorem one_received : Device.udpReceive (Chip.dev (arriveSched [dgramA]) noFaults).bus 9 (arriveBound [dgramA]).1
    ([0, 0], (arriveBound [dgramA]).2) = (.ok (2, .v4 ⟨⟨10, 0, 0, 1⟩, 53⟩), oneReceived.2.1, oneReceived.2.2) :=
  run_eta (r := oneReceived) (by decide +kernel)
example := C77_udp_unannounced (n := 0) (by decide) _ (by decide +kernel) 9 _ _ _ _ _ one_received
example := C77_udp_partial (n := 0) (by decide) (arriveBound_opened [dgramA])
  (by have h := later_udp (UdpRun.start (u0 := (arriveBound [dgramA]).1) (c0 := (arriveBound [dgramA]).2.bus) (sched := arriveSched [dgramA]))
      exact h) 9 [0, 0] _ (2, .v4 ⟨⟨10, 0, 0, 1⟩, 53⟩)
  (run_eta (r := Device.udpReceive (Chip.dev (arriveSched [dgramA]) noFaults).bus 9 (arriveBound [dgramA]).1
    ([0, 0], { (arriveBound [dgramA]).2 with bus := later (arriveSched [dgramA]) (arriveBound [dgramA]).2.bus })) (by decide +kernel))
  (by decide +kernel)

def demoTaken : Res (TcpSocketError Unit) Nat × List U8 × Device Chip Unit :=
  Device.tcpReceive (Chip.dev demoSched noFaults).bus 9 demoSocket ([0, 0, 0, 0], demoArrived)
theorem demo_taken : Device.tcpReceive (Chip.dev demoSched noFaults).bus 9 demoSocket ([0, 0, 0, 0], demoArrived) =
    (.ok 3, demoTaken.2.1, demoTaken.2.2) := run_eta (r := demoTaken) (by decide +kernel)
example := C77_tcp_unannounced (n := 0) (by decide) 9 _ _ _ _ 3 demo_taken
example := C77_tcp_partial 0 (by decide) 100 9 demoRemote demoDevice demoConnected demoArrived _ powerUp_sizes demo_connected [] []
  (by have h := later_tcp (TcpRun.start (sched := demoSched) (c := demoConnected.bus)); rw [demoArrived]; exact h) (by decide +kernel)
  [0, 0, 0, 0] _ 3 demo_taken (by decide) (by decide +kernel)
example := C78_cleared 0 (by decide) 9 [1] (onceConnected noFaults) onceSent 1
  (run_eq (r := Device.tcpSend (Chip.dev onceSched noFaults).bus 9 demoSocket [1] (onceConnected noFaults)) (by decide +kernel))

end W5500.Props
