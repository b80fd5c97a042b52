import Verif.Proofs.Swift
import Verif.Props.Success
import Verif.Props.Cost
/-! # Properties: how long sending and connecting take

C118 Sending and connecting take no longer than the network does. -/

namespace W5500.Props
open W5500.Spec
variable {E H : Type} {sched : Nat → List (Nat × Act)} {faults : Nat → Option (E × Nat)}
  {sched0 : Nat → List (Nat × Act)} {faults0 : Nat → Option (E × Nat)}

/-! ## C118 Sending and connecting take no longer than the network does

The bounds hold however the call ends, whichever transfers fail, and for every number of rounds the caller is prepared to
wait (`fuel`). -/

/-- C118, TCP connect: if the chip comes to a verdict within `L` bytes, `L` rounds of waiting are enough, and the call is over
after `L + 29` bytes. -/
theorem C118_tcp_connect {n L : Nat} (hn : n < 8) (ha : AnsweringIn L sched n) (remote : SockAddr) (d : Device Chip H) (fuel : Nat) :
    (L ≤ fuel → (Device.tcpConnect (Chip.dev sched faults).bus fuel ⟨Socket.new (BitVec.ofNat 8 n)⟩ remote d).1 ≠ .fuel) ∧
    (Device.tcpConnect (Chip.dev sched faults).bus fuel ⟨Socket.new (BitVec.ofNat 8 n)⟩ remote d).2.bus.clock ≤
      d.bus.clock + (L + 29) := by
  have key : (Device.tcpConnect (Chip.dev sched faults).bus L ⟨Socket.new (BitVec.ofNat 8 n)⟩ remote d).1 ≠ .fuel := by
    cases remote with
    | v6 a p => exact nofun
    | v4 a => exact connect_rounds (sched := sched) (faults := faults) hn ha _ a d.bus
  have cost := fun k => (C80_tcp (Meter.chip_on sched faults) k ⟨Socket.new (BitVec.ofNat 8 n)⟩ remote [] [] d).1.2
  rcases Nat.le_total L fuel with h | h
  · rw [(le_tcpConnect (B := (Chip.dev sched faults).bus) (H := H) ⟨Socket.new (BitVec.ofNat 8 n)⟩ remote h).run d key]
    exact ⟨fun _ => key, cost L⟩
  · refine ⟨fun h' => ?_, Nat.le_trans (cost fuel) (by show d.bus.clock + _ ≤ _; omega)⟩
    rw [Nat.le_antisymm h h']
    exact key

/-- C118, TCP send: if SENDOK is raised within `L` bytes, `L + 1` rounds of waiting are enough, and the call is over after
`L + 10` bytes and the data. -/
theorem C118_tcp_send {n L : Nat} (hn : n < 8) (hc : ConfirmingIn L sched n) (data : List U8) (d : Device Chip H)
    (hp : (d.bus.socks n).proto = 1) (fuel : Nat) :
    (L + 1 ≤ fuel → (Device.tcpSend (Chip.dev sched faults).bus fuel ⟨Socket.new (BitVec.ofNat 8 n)⟩ data d).1 ≠ .fuel) ∧
    (Device.tcpSend (Chip.dev sched faults).bus fuel ⟨Socket.new (BitVec.ofNat 8 n)⟩ data d).2.bus.clock ≤
      d.bus.clock + (L + data.length + 10) := by
  have key : (Device.tcpSend (Chip.dev sched faults).bus (L + 1) ⟨Socket.new (BitVec.ofNat 8 n)⟩ data d).1 ≠ .fuel :=
    tcpSend_rounds (sched := sched) (faults := faults) hn hc data d.bus hp
  have cost := fun k => (C80_tcp (Meter.chip_on sched faults) k ⟨Socket.new (BitVec.ofNat 8 n)⟩ (.v6 [] 0) data [] d).2.1.2
  rcases Nat.le_total (L + 1) fuel with h | h
  · rw [(le_tcpSend (B := (Chip.dev sched faults).bus) (H := H) ⟨Socket.new (BitVec.ofNat 8 n)⟩ data h).run d key]
    exact ⟨fun _ => key, Nat.le_trans (cost (L + 1)) (by show d.bus.clock + _ ≤ _; omega)⟩
  · refine ⟨fun h' => ?_, Nat.le_trans (cost fuel) (by show d.bus.clock + _ ≤ _; omega)⟩
    rw [Nat.le_antisymm h h']
    exact key

/-- C118, MACRAW: if what is committed leaves within `L` bytes, and SENDOK for it is raised within `L'` more, and nothing is
dropped, writing a frame that fits into the TX buffer is over after `L + L' + 9` bytes and the frame. -/
theorem C118_raw_write {L L' : Nat} (he : EmittingIn L sched 0) (hc : ConfirmingIn L' sched 0) (hl : Lossless sched 0) {r : RawDevice}
    {c0 c : Chip} {log : List RawSent} {got : List RawGot} (ho : RawOpened sched0 faults0 r c0) (hr : RawRun sched faults r c0 log got c)
    (frame : List U8) (hf : frame ≠ []) (hz : frame.length ≤ 16384) (fuel : Nat) :
    (L + L' + 1 ≤ fuel → (r.writeFrame (Chip.dev sched faults).bus fuel frame c).1 ≠ .fuel) ∧
    (r.writeFrame (Chip.dev sched faults).bus fuel frame c).2.clock ≤ c.clock + (L + L' + frame.length + 9) := by
  obtain ⟨h1, A, _, ps, fs, _, _, h4⟩ := raw_inv ho hr
  have key := rawWrite_rounds (sched := sched) (faults := faults) (by decide) he hc hl r (by rw [h1]) _ _ _ [] frame hf hz c h4
  have cost := fun k => ((C80_raw (Meter.chip_on sched faults) k r frame [] 0 c).2.2.1).2
  rcases Nat.le_total (L + L' + 1) fuel with h | h
  · rw [(le_writeFrame (B := (Chip.dev sched faults).bus) r frame h).run c key]
    exact ⟨fun _ => key, Nat.le_trans (cost (L + L' + 1)) (by show c.clock + _ ≤ _; omega)⟩
  · refine ⟨fun h' => ?_, Nat.le_trans (cost fuel) (by show c.clock + _ ≤ _; omega)⟩
    rw [Nat.le_antisymm h h']
    exact key

/-- C118, UDP send: if what is committed leaves (or is dropped) within `L` bytes, a send is over after `L + 20` bytes for each
datagram made of the data, and 3 bytes, and the data. -/
theorem C118_udp_send {n L : Nat} (hn : n < 8) (he : EmittingIn L sched n) {u0 u : UdpSocket} {c0 : Chip} {log : List UdpSent}
    {got : List UdpGot} {d : Device Chip H} (ho : UdpOpened sched0 faults0 n u0 c0)
    (hr : UdpRun sched faults n u0 c0 log got u d.bus) (data : List U8) (fuel : Nat) :
    (Device.udpSend (Chip.dev sched faults).bus fuel u data d).2.bus.clock ≤ d.bus.clock +
      ((data.length + (d.bus.socks n).txSize - 1) / (d.bus.socks n).txSize * (L + 20) + data.length + 3) := by
  obtain ⟨A, h0⟩ := opened_inv hn ho
  obtain ⟨hs, _, _, _, _, _, h2⟩ := udpRun_inv hn h0 hr
  have hz : (d.bus.socks n).txSize ≠ 0 :=
    Nat.ne_of_gt (Nat.lt_of_lt_of_le (by decide) (Sock.GoodSize.pos h2.idle.base.size))
  rw [← pieces_length hz]
  exact ((sendAll_timely (sched := sched) (faults := faults) hn he _ _ _ _ u hs data fuel).run d.bus ⟨h2.idle, rfl⟩).1

/-- C118, UDP `send_to`: six bytes more. -/
theorem C118_udp_send_to {n L : Nat} (hn : n < 8) (he : EmittingIn L sched n) {u0 u : UdpSocket} {c0 : Chip} {log : List UdpSent}
    {got : List UdpGot} {d : Device Chip H} (ho : UdpOpened sched0 faults0 n u0 c0)
    (hr : UdpRun sched faults n u0 c0 log got u d.bus) (remote : SockAddr) (data : List U8) (fuel : Nat) :
    (Device.udpSendTo (Chip.dev sched faults).bus fuel remote data (u, d)).2.2.bus.clock ≤ d.bus.clock +
      ((data.length + (d.bus.socks n).txSize - 1) / (d.bus.socks n).txSize * (L + 20) + data.length + 9) := by
  obtain ⟨A, h0⟩ := opened_inv hn ho
  obtain ⟨hs, hco, sent, ds, _, _, h2⟩ := udpRun_inv hn h0 hr
  have hz : (d.bus.socks n).txSize ≠ 0 :=
    Nat.ne_of_gt (Nat.lt_of_lt_of_le (by decide) (Sock.GoodSize.pos h2.idle.base.size))
  rw [← pieces_length hz]
  cases remote with
  | v6 a p => exact Nat.le_add_right _ _
  | v4 a => exact sendTo_timely (sched := sched) (faults := faults) hn he _ _ _ _ u hs a data fuel d.bus h2 hco

/-! On the chip that sends what there is to send every thousandth byte time, and says so 100 byte times later, and changes
the status after another 100. -/

theorem slow_emittingIn : EmittingIn 1000 slowSched 0 := fun k => ⟨k + (1500 - k % 1000) % 1000, by omega, by omega, true, by
  unfold slowSched
  rw [if_pos (by omega)]
  exact List.mem_singleton.mpr rfl⟩

theorem slow_confirmingIn : ConfirmingIn 1000 slowSched 0 := fun k =>
  ⟨k + (1600 - k % 1000) % 1000, by omega, by omega, 0x10, by decide, by
    unfold slowSched
    rw [if_neg (by omega), if_pos (by omega)]
    exact List.mem_singleton.mpr rfl⟩

theorem slow_answeringIn : AnsweringIn 1000 slowSched 0 := fun k => ⟨k + (1700 - k % 1000) % 1000, by omega, by omega, by
  unfold slowSched
  rw [if_neg (by omega), if_neg (by omega), if_pos (by omega)]
  refine ⟨⟨0x17, .inl rfl, List.mem_singleton.mpr rfl⟩, fun y hy => ?_⟩
  rw [List.mem_singleton] at hy
  cases hy
  exact .inl rfl⟩

/-- C118: connecting, from power-up. -/
example (fuel : Nat) : (1000 ≤ fuel → (Device.tcpConnect (Chip.dev slowSched noFaults).bus fuel demoSocket demoRemote demoDevice).1 ≠ .fuel) ∧
    (Device.tcpConnect (Chip.dev slowSched noFaults).bus fuel demoSocket demoRemote demoDevice).2.bus.clock ≤ demoDevice.bus.clock + (1000 + 29) :=
  C118_tcp_connect (by decide) slow_answeringIn _ _ fuel

/-- C118: sending over the connection. -/
example (data : List U8) (fuel : Nat) {d : Device Chip Unit} (h : slowConnected = d) :
    (1000 + 1 ≤ fuel → (Device.tcpSend (Chip.dev slowSched noFaults).bus fuel demoSocket data d).1 ≠ .fuel) ∧
    (Device.tcpSend (Chip.dev slowSched noFaults).bus fuel demoSocket data d).2.bus.clock ≤ d.bus.clock + (1000 + data.length + 10) :=
  C118_tcp_send (by decide) slow_confirmingIn data d (by rw [← h]; decide +kernel) fuel

/-- C118: a UDP datagram, on a chip that sends without delay. -/
example (data : List U8) (fuel : Nat) {u : UdpSocket} {d : Device Chip Unit} (h : udpConnected noFaults = (u, d)) :
    (Device.udpSendTo (Chip.dev emitSched noFaults).bus fuel (.v4 addrB) data (u, d)).2.2.bus.clock ≤
      d.bus.clock + ((data.length + (d.bus.socks 0).txSize - 1) / (d.bus.socks 0).txSize * (1 + 20) + data.length + 9) := by
  have ho := demo_opened
  rw [h] at ho
  exact C118_udp_send_to (by decide) (fun k => ⟨k, Nat.le_refl _, Nat.lt_succ_self _, true, List.mem_cons_self⟩) ho .start _ data fuel

/-- C118: an Ethernet frame. -/
example (fuel : Nat) : (rawDemo.writeFrame (Chip.dev frameSched noFaults).bus fuel [1, 2, 3] (rawChip noFaults)).2.clock ≤
    (rawChip noFaults).clock + (1 + 1 + [(1 : U8), 2, 3].length + 9) :=
  (C118_raw_write (L := 1) (L' := 1) (fun k => ⟨k, Nat.le_refl _, Nat.lt_succ_self _, true, by unfold frameSched; split <;> simp⟩)
    (fun k => ⟨k, Nat.le_refl _, Nat.lt_succ_self _, 0x10, by decide, by unfold frameSched; split <;> simp⟩)
    (fun k => by unfold frameSched; split <;> simp) rawDemo_opened .start _ (by simp) (by simp) fuel).2

end W5500.Props
