import Verif.Props.Cases6
import Verif.Props.Stranger
import Verif.Props.LocalPort
import Verif.Props.UdpPorts
import Verif.Props.Fitting
import Verif.Props.Dead
import Verif.Props.Bridge
import Verif.Props.Prompt

/-! Concrete cases, C85_tcp and C102–C119: see `Props/Cases1.lean`. -/

namespace W5500.Props
open W5500.Spec Sock

/-! ## C85: a TCP connection on the slow chip -/

deriving instance DecidableEq for Seen

theorem answer_outputs : Client.outputs answerEnv.dev.bus (Client.initial ((), Slow.idle Chip.powerUp) ())
    (onBusType _ (tcpProgram 9 100 demoRemote [(9, .send [7, 8]), (9, .receive [0, 0, 0])])) =
    .tcpSocket (.ok demoSocket) :: .tcp (.ok ()) :: [.tcpSent (.ok 2), .tcpReceived (.ok 2) [1, 2, 0]] := by
  decide +kernel
example := C85_tcp answerEnv () Chip.powerUp powerUp_sizes () 9 100 demoRemote _ _ _ answer_outputs (by
  intro o ho
  simp only [List.mem_cons, List.not_mem_nil, or_false] at ho
  rcases ho with rfl | rfl <;> exact .inl ⟨_, rfl⟩)

/-! ## C102 … C108 -/

example := C102_partial (n := 0) (by decide) stranger_opened stranger_run addrA

theorem split_mem {α : Type} [DecidableEq α] (e : α) : ∀ l : List α, e ∈ l →
    l = l.takeWhile (· ≠ e) ++ e :: (l.dropWhile (· ≠ e)).tail := by
  intro l
  induction l with
  | nil => nofun
  | cons x l ih =>
    intro h
    by_cases hx : x = e
    · subst hx; simp
    · rw [List.takeWhile_cons_of_pos (by simpa using hx), List.dropWhile_cons_of_pos (by simpa using hx), List.cons_append]
      exact congrArg _ (ih (by simpa [Ne.symm hx] using h))

/-- The client of C103: two TCP sockets, each of which connects. -/
def portClient : Client Chip Unit := Client.run (Chip.dev demoSched noFaults).bus 9 (Client.initial Chip.powerUp ()) [.tcpSocket, .tcpSocket]
def connectEv (t : TcpSocket) : Ev Unit := .wr t.socket.register 0x01 [0x04] (.ok ())
def portLog (t : TcpSocket) : List (Ev Unit) :=
  (Device.tcpConnect (traced (Chip.dev demoSched noFaults).bus) 9 t (.v4 addrA) ⟨⟨portClient.dev.bus, []⟩, portClient.dev.state⟩).2.bus.log
theorem port_before (t : TcpSocket) (h : connectEv t ∈ portLog t) :
    BeforeConnect (Chip.dev demoSched noFaults).bus 9 t addrA portClient.dev ((portLog t).takeWhile (· ≠ connectEv t)) :=
  ⟨_, _, split_mem (connectEv t) (portLog t) h⟩
example := C103_partial (E := Unit) (Chip.dev demoSched noFaults).bus 9 Chip.powerUp () [.tcpSocket, .tcpSocket] (i := 0) (j := 1)
  (t := demoSocket) (t' := ⟨Socket.new 1⟩) (by decide) (by decide +kernel) (by decide +kernel)
  (port_before demoSocket (by decide +kernel)) (port_before ⟨Socket.new 1⟩ (by decide +kernel))

def portOps : List (Op Chip) := [.udpSocket, .udpSetPort 0 68, .udpSocket, .udpBind 0 5000, .udpConnect 1 (.v4 addrA)]
example := C105_partial (Chip.dev emitSched noFaults).bus 9 Chip.powerUp () portOps (by decide) (by
    intro p hp
    have h : 68 = p ∨ 5000 = p := by simpa [portOps, Op.namesPort] using hp
    unfold DefaultPort
    rcases h with rfl | rfl <;> decide) (i := 0) (j := 1)
  (u := ⟨Socket.new 0, none, 5000⟩) (u' := ⟨Socket.new 1, some addrA, 49850⟩) (by decide) (by decide +kernel) (by decide +kernel)
def bindLog : Res (UdpSocketError Unit) Unit × UdpSocket × Device (TW Chip Unit) Unit :=
  Device.udpBind (traced (Chip.dev emitSched noFaults).bus) 5000 (demoUdp, ⟨⟨Chip.powerUp, []⟩, DeviceState.new ()⟩)
example := C105_open (Chip.dev emitSched noFaults).bus (d := ⟨Chip.powerUp, DeviceState.new ()⟩) (.inl ⟨5000, run_eta (r := bindLog) (a := .ok ()) (by decide +kernel)⟩)
  (split_mem (.wr demoUdp.socket.register 0x01 [0x01] (.ok ())) bindLog.2.2.bus.log (by decide +kernel))
example := C107_raw (B := eagerBus) 2 3 [1] ⟨(), []⟩ _ 1
  (run_eq (r := (⟨.new 2⟩ : RawDevice).writeFrame (traced eagerBus) 3 [1] ⟨(), []⟩) (by decide +kernel)) 1
example := C108_partial (x := 0xFF) (B := (Chip.dev emitSched noFaults).bus) (by decide) (by decide) 9 [(0, .tcpSend [5])] (fadingDevice 1 0x17 5)
  (by decide +kernel)

/-! ## C111 … C119: servers -/

theorem shop_serving : Serving (shopSched false) noFaults 0 shopAnswer (shopBound false).1 (shopBound false).2.bus
    [⟨[0, 0], 2, .v4 addrA, shopFirst.1⟩] shopFirst.2.1 shopFirst.2.2.bus :=
  Serving.round (sched := shopSched false) (faults := noFaults) (n := 0) (answer := shopAnswer) (u0 := (shopBound false).1)
    (c0 := (shopBound false).2.bus) 9 [0, 0] shopFirst.1 (2, .v4 addrA) .start (u' := shopFirst.2.1) (d' := shopFirst.2.2)
    (d := (shopBound false).2) shop_first
example := C111 (by decide) (shop_opened false) shop_serving
def echoFirst : Res (UdpSocketError Unit) (Nat × SockAddr) × List U8 × UdpSocket × Device Chip Unit :=
  serve (Chip.dev (shopSched false) noFaults).bus Spec.echo 9 ([0, 0], shopBound false)
theorem quad_eta {α β γ δ : Type} {r : α × β × γ × δ} {a : α} (h : r.1 = a) : r = (a, (r.2.1, r.2.2.1, r.2.2.2)) := run_eq h
example := C112_partial (n := 0) (by decide) (shop_opened false) .start 9 [0, 0] _ (2, .v4 addrA) (quad_eta (r := echoFirst) (by decide +kernel))

example : ∃ buf' c', Succeeds (respond (Chip.dev relaySched noFaults).bus rawDemo fun f => 9 :: f.take 100) (List.replicate 64 0, relayChip) ()
    (buf', c') := by
  obtain ⟨h1, h2, h3⟩ := relay_chip
  obtain ⟨buf', c', _, _, _, h, _⟩ := C113_round (sched := relaySched) (faults := noFaults) (fun _ => rfl)
    (fun k => (relay_often k).imp fun l h => ⟨h.1, true, by rw [h.2]; simp⟩)
    (fun k => (relay_often k).imp fun l h => ⟨h.1, 0x10, by decide, by rw [h.2]; simp⟩)
    (fun k h => by rcases relay_mem h with h | h | h <;> exact nomatch h) relay_raw .start 5 (by rw [h2]; decide)
    (fun k => (relay_often k).imp fun l h => ⟨h.1, [1, 2, 3], by decide, by rw [h.2]; simp⟩)
    (fun k h => by rcases relay_mem h with h | h | h <;> exact nomatch h)
    [] ⟨nofun, by unfold Sock.queue; rw [h1]; rfl⟩ nofun (List.replicate 64 0) nofun (fun f => 9 :: f.take 100)
    (fun f => ⟨nofun, by rw [List.length_cons, List.length_take]; omega⟩)
  exact ⟨buf', c', h⟩

/-- A datagram comes before SPI byte 9. -/
example : ∃ k origin buf' d', Succeeds (fun fuel => nbBlock (Device.udpReceive (Chip.dev steadySched noFaults).bus fuel steadyBound.1) fuel)
    ([0, 0], steadyBound.2) (k, origin) (buf', d') ∧ UdpGot.Brings ⟨[0, 0], k, origin, buf'⟩ dgramA := by
  obtain ⟨h1, h2, h3, h4, h5⟩ := steady_bound
  obtain ⟨k, o, b, d, g1, g2, _⟩ := C115_one (n := 0) (by decide) (fun _ => rfl) steady_status steady_opened (d := steadyBound.2) .start h1
    (List.length_eq_zero_iff.mp (by rw [Sock.queue_length, h5]; rfl)) (by unfold Announced; rw [h2]; decide) [0, 0]
    (by decide) (a := 9) (dg := dgramA) steady_start (fun k _ hk => steady_quiet (by omega)) (steady_news 0) (by decide)
    (by rw [h4]; decide) (by decide) (fun k h h' => steady_quiet (by have h' : k < 9 + (2 + 20) := h'; omega))
  exact ⟨k, o, b, d, g1, g2⟩
/-- The same, with an answer. -/
example : ∃ k dst buf' d', Succeeds (serve (Chip.dev steadySched noFaults).bus Spec.echo) ([0, 0], steadyBound.1, steadyBound.2) (k, .v4 dst)
    (buf', { steadyBound.1 with destination := some dst }, d') := by
  obtain ⟨h1, h2, h3, h4, h5⟩ := steady_bound
  have hz : (steadyBound.2.bus.socks 0).txSize = 2048 := by
    unfold steadyBound
    decide +kernel
  obtain ⟨k, dst, b, d, g, _⟩ := C119_round (n := 0) (L := 8) (m := 2) (by decide) (fun _ => rfl) steady_status steady_emittingIn
    steady_lossless steady_opened (d := steadyBound.2) .start h1 (by unfold Sock.NoTimeout; rw [h2, h3]; decide)
    (List.length_eq_zero_iff.mp (by rw [Sock.queue_length, h5]; rfl)) (by unfold Announced; rw [h2]; decide) [0, 0]
    (by decide) Spec.echo (fun _ _ h => h) (gap := 2100) (by rw [hz]; decide) (a := 9) (dg := dgramA) steady_start
    (fun k _ hk => steady_quiet (by omega)) (steady_news 0) (by decide) (by rw [h4]; decide) (by decide)
    (fun k h h' => steady_quiet (by omega))
  exact ⟨k, dst, b, d, g⟩
example (data : List U8) (fuel : Nat) {u : UdpSocket} {d : Device Chip Unit} (h : udpConnected noFaults = (u, d)) :
    (Device.udpSend (Chip.dev emitSched noFaults).bus fuel u data d).2.bus.clock ≤
      d.bus.clock + ((data.length + (d.bus.socks 0).txSize - 1) / (d.bus.socks 0).txSize * (1 + 20) + data.length + 3) := by
  have ho := demo_opened
  rw [h] at ho
  exact C118_udp_send (by decide) (fun k => ⟨k, Nat.le_refl _, Nat.lt_succ_self _, true, List.mem_cons_self⟩) ho .start data fuel

end W5500.Props
