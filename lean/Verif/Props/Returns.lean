import Verif.Props.Raw
import Verif.Props.TcpConnect
import Verif.Proofs.RecvReturns
import Verif.Proofs.SendReturns
/-! # Calls that return

C67 Receiving always terminates, C68 sending and connecting terminate if the network is fair. -/

namespace W5500.Props
open W5500.Spec
variable {W E H : Type} {sched : Nat → List (Nat × Act)} {faults : Nat → Option (E × Nat)}
  {sched0 : Nat → List (Nat × Act)} {faults0 : Nat → Option (E × Nat)}

/-! ## C67 Receiving always terminates -/

/-- C67, the meaning of the number of rounds: if a call ends at all with `k` rounds, on any bus, it ends the same way, in
the same state, with any larger number. -/
theorem C67_rounds (B : Bus W E) {k l : Nat} (h : k ≤ l) (t : TcpSocket) (u : UdpSocket) (r : RawDevice) (remote : SockAddr)
    (data : List U8) (w : W) (d : Device W H) (b : List U8) :
    ((Device.tcpConnect B k t remote d).1 ≠ .fuel → Device.tcpConnect B l t remote d = Device.tcpConnect B k t remote d) ∧
    ((Device.tcpSend B k t data d).1 ≠ .fuel → Device.tcpSend B l t data d = Device.tcpSend B k t data d) ∧
    ((Device.tcpReceive B k t (b, d)).1 ≠ .fuel → Device.tcpReceive B l t (b, d) = Device.tcpReceive B k t (b, d)) ∧
    ((Device.udpSend B k u data d).1 ≠ .fuel → Device.udpSend B l u data d = Device.udpSend B k u data d) ∧
    ((Device.udpSendTo B k remote data (u, d)).1 ≠ .fuel →
      Device.udpSendTo B l remote data (u, d) = Device.udpSendTo B k remote data (u, d)) ∧
    ((Device.udpReceive B k u (b, d)).1 ≠ .fuel → Device.udpReceive B l u (b, d) = Device.udpReceive B k u (b, d)) ∧
    ((r.writeFrame B k data w).1 ≠ .fuel → r.writeFrame B l data w = r.writeFrame B k data w) ∧
    ((r.readFrame B k (b, w)).1 ≠ .fuel → r.readFrame B l (b, w) = r.readFrame B k (b, w)) :=
  ⟨(le_tcpConnect t remote h).run d, (le_tcpSend t data h).run d, (le_tcpReceive t h).run (b, d),
    (le_udpSend u data h).run d, (le_udpSendTo remote data h).run (u, d), (le_udpReceive u h).run (b, d),
    (le_writeFrame r data h).run w, (le_readFrame r h).run (b, w)⟩

/-- C67, TCP: whatever the network does and whichever transactions fail, `receive` returns: the size register can change
between two readings only as often as there is room in the RX buffer. -/
theorem C67_tcp {n : Nat} (hn : n < 8) (d : Device Chip H) (hz : (d.bus.socks n).rxSize < 65536) (buf : List U8) :
    (∀ fuel, (d.bus.socks n).rxSize < fuel →
      (Device.tcpReceive (Chip.dev sched faults).bus fuel ⟨Socket.new (BitVec.ofNat 8 n)⟩ (buf, d)).1 ≠ .fuel) ∧
    Finishes (fun fuel => Device.tcpReceive (Chip.dev sched faults).bus fuel ⟨Socket.new (BitVec.ofNat 8 n)⟩) (buf, d) := by
  have key : ∀ fuel, (d.bus.socks n).rxSize < fuel →
      (Device.tcpReceive (Chip.dev sched faults).bus fuel ⟨Socket.new (BitVec.ofNat 8 n)⟩ (buf, d)).1 ≠ .fuel := by
    intro fuel hf
    obtain ⟨_, h⟩ := (tcpReceive_total (sched := sched) (faults := faults) hn fuel).run (buf, d.bus) ⟨hz, hf⟩
    exact h
  exact ⟨key, _, Le.endsWith (fun _ _ h => le_tcpReceive _ h) (key _ (Nat.lt_succ_self _))⟩

/-- C67, UDP. -/
theorem C67_udp {n : Nat} (hn : n < 8) (u : UdpSocket) (hu : u.socket = Socket.new (BitVec.ofNat 8 n)) (d : Device Chip H)
    (hz : (d.bus.socks n).rxSize < 65536) (buf : List U8) :
    (∀ fuel, (d.bus.socks n).rxSize < fuel →
      (Device.udpReceive (Chip.dev sched faults).bus fuel u (buf, d)).1 ≠ .fuel) ∧
    Finishes (fun fuel => Device.udpReceive (Chip.dev sched faults).bus fuel u) (buf, d) := by
  have key : ∀ fuel, (d.bus.socks n).rxSize < fuel →
      (Device.udpReceive (Chip.dev sched faults).bus fuel u (buf, d)).1 ≠ .fuel := by
    intro fuel hf
    obtain ⟨_, h⟩ := (Total.andThen (udpReceive_total (sched := sched) (faults := faults) hn u hu fuel)
      (fun x : Nat × UdpHeader => NoFuel.pure (x.1, SockAddr.v4 x.2.origin))).run (buf, d.bus) ⟨hz, hf⟩
    exact h
  exact ⟨key, _, Le.endsWith (fun _ _ h => le_udpReceive _ h) (key _ (Nat.lt_succ_self _))⟩

/-- C67, MACRAW. -/
theorem C67_raw {n : Nat} (hn : n < 8) (r : RawDevice) (hr : r.rawSocket = Socket.new (BitVec.ofNat 8 n)) (c : Chip)
    (hz : (c.socks n).rxSize < 65536) (buf : List U8) :
    (∀ fuel, (c.socks n).rxSize < fuel → (r.readFrame (Chip.dev sched faults).bus fuel (buf, c)).1 ≠ .fuel) ∧
    Finishes (fun fuel => r.readFrame (Chip.dev sched faults).bus fuel) (buf, c) := by
  have key : ∀ fuel, (c.socks n).rxSize < fuel → (r.readFrame (Chip.dev sched faults).bus fuel (buf, c)).1 ≠ .fuel := by
    intro fuel hf
    obtain ⟨_, h⟩ := (rawRead_total (sched := sched) (faults := faults) hn r hr fuel).run (buf, c) ⟨hz, hf⟩
    exact h
  exact ⟨key, _, Le.endsWith (fun _ _ h => le_readFrame _ h) (key _ (Nat.lt_succ_self _))⟩

/-! ## C68 Sending and connecting terminate if the network is fair -/

/-- C68, TCP connect: if the chip keeps coming to a verdict (established, or closed), the call returns, from any state. The
condition is needed: `C50_refuted`. -/
theorem C68_tcp_connect {n : Nat} (hn : n < 8) (ha : Answering sched n) (remote : SockAddr) (d : Device Chip H) :
    Finishes (fun fuel => Device.tcpConnect (Chip.dev sched faults).bus fuel ⟨Socket.new (BitVec.ofNat 8 n)⟩ remote) d := by
  have key : ∃ k, (Device.tcpConnect (Chip.dev sched faults).bus k ⟨Socket.new (BitVec.ofNat 8 n)⟩ remote d).1 ≠ .fuel := by
    cases remote with
    | v6 a p => exact ⟨0, nofun⟩
    | v4 a => exact (connect_total (sched := sched) (faults := faults) hn ha _ a).run d.bus trivial
  obtain ⟨k, hk⟩ := key
  exact ⟨_, Le.endsWith (fun _ _ h => le_tcpConnect _ _ h) hk⟩

/-- C68, TCP send: if SENDOK keeps being raised, the call returns, from any state in which the socket is a TCP socket. The
condition is needed: `C51_refuted`. -/
theorem C68_tcp_send {n : Nat} (hn : n < 8) (hc : Confirming sched n) (data : List U8) (d : Device Chip H)
    (hp : (d.bus.socks n).proto = 1) :
    Finishes (fun fuel => Device.tcpSend (Chip.dev sched faults).bus fuel ⟨Socket.new (BitVec.ofNat 8 n)⟩ data) d := by
  obtain ⟨k, hk⟩ := (tcpSend_total (sched := sched) (faults := faults) hn hc data).run d.bus hp
  exact ⟨_, Le.endsWith (k := k) (fun _ _ h => le_tcpSend _ _ h) hk⟩

/-- C68, UDP send: if what is committed leaves or is dropped some time, the call returns, whatever happened to the socket
since it was opened. -/
theorem C68_udp_send {n : Nat} (hn : n < 8) (he : Emitting sched n) {u0 u : UdpSocket} {c0 : Chip} {log : List UdpSent}
    {got : List UdpGot} {d : Device Chip H} (ho : UdpOpened sched0 faults0 n u0 c0)
    (hr : UdpRun sched faults n u0 c0 log got u d.bus) (data : List U8) :
    Finishes (fun fuel => Device.udpSend (Chip.dev sched faults).bus fuel u data) d := by
  obtain ⟨A, h0⟩ := opened_inv hn ho
  obtain ⟨hs, _, _, _, _, _, h2⟩ := udpRun_inv hn h0 hr
  obtain ⟨k, hk⟩ := (sendAll_total (sched := sched) (faults := faults) hn he _ _ _ u hs data).run d.bus h2.idle
  exact ⟨_, Le.endsWith (k := k) (fun _ _ h => le_udpSend _ _ h) hk⟩

/-- C68, UDP `send_to`. -/
theorem C68_udp_send_to {n : Nat} (hn : n < 8) (he : Emitting sched n) {u0 u : UdpSocket} {c0 : Chip} {log : List UdpSent}
    {got : List UdpGot} {d : Device Chip H} (ho : UdpOpened sched0 faults0 n u0 c0)
    (hr : UdpRun sched faults n u0 c0 log got u d.bus) (remote : SockAddr) (data : List U8) :
    Finishes (fun fuel => Device.udpSendTo (Chip.dev sched faults).bus fuel remote data) (u, d) := by
  obtain ⟨A, h0⟩ := opened_inv hn ho
  obtain ⟨hs, hco, sent, ds, _, _, h2⟩ := udpRun_inv hn h0 hr
  have key : ∃ k, (Device.udpSendTo (Chip.dev sched faults).bus k remote data (u, d)).1 ≠ .fuel := by
    cases remote with
    | v6 a p => exact ⟨0, nofun⟩
    | v4 a => exact (sendTo_total (sched := sched) (faults := faults) hn he _ _ _ _ u hs a data).run (u, d.bus) ⟨rfl, h2, hco⟩
  obtain ⟨k, hk⟩ := key
  exact ⟨_, Le.endsWith (fun _ _ h => le_udpSendTo _ _ h) hk⟩

/-- C68, MACRAW: if what is committed leaves, and the SENDOK for it is raised some time, `write_frame` of a frame that fits
into the TX buffer returns. For empty and oversized frames it does not: `C58_refuted`. -/
theorem C68_raw_write (he : Emitting sched 0) (hc : Confirming sched 0) (hl : Lossless sched 0) {r : RawDevice} {c0 c : Chip}
    {log : List RawSent} {got : List RawGot} (ho : RawOpened sched0 faults0 r c0) (hr : RawRun sched faults r c0 log got c)
    (frame : List U8) (hf : frame ≠ []) (hz : frame.length ≤ 16384) :
    Finishes (fun fuel => r.writeFrame (Chip.dev sched faults).bus fuel frame) c := by
  obtain ⟨h1, A, _, ps, fs, _, _, h4⟩ := raw_inv ho hr
  obtain ⟨k, hk⟩ := (rawWrite_total (sched := sched) (faults := faults) (by decide) he hc hl r (by rw [h1]) _ _ _ [] frame hf hz).run c h4
  exact ⟨_, Le.endsWith (k := k) (fun _ _ h => le_writeFrame _ _ h) hk⟩

/-- Every thousandth byte time the chip sends what there is to send, and a little later says so. -/
def slowSched (k : Nat) : List (Nat × Act) :=
  if k % 1000 = 500 then [(0, .emit true)] else if k % 1000 = 600 then [(0, .raise 0x10)] else
  if k % 1000 = 700 then [(0, .status 0x17)] else if k % 1000 = 800 then [(0, .status 0x1C)] else []

theorem slow_emitting : Emitting slowSched 0 := fun k => ⟨1000 * k + 500, by omega, true, by
  unfold slowSched
  rw [if_pos (by omega)]
  exact List.mem_singleton.mpr rfl⟩

theorem slow_confirming : Confirming slowSched 0 := fun k => ⟨1000 * k + 600, by omega, 0x10, by decide, by
  unfold slowSched
  rw [if_neg (by omega), if_pos (by omega)]
  exact List.mem_singleton.mpr rfl⟩

theorem slow_lossless : Lossless slowSched 0 := fun k => by
  unfold slowSched
  repeat' split
  all_goals simp

theorem slow_answering : Answering slowSched 0 := fun k => ⟨1000 * k + 700, by omega, by
  unfold slowSched
  rw [if_neg (by omega), if_neg (by omega), if_pos (by omega)]
  refine ⟨⟨0x17, .inl rfl, List.mem_singleton.mpr rfl⟩, fun y hy => ?_⟩
  rw [List.mem_singleton] at hy
  cases hy
  exact .inl rfl⟩

/-- C68 on that chip, from power-up. -/
example : Finishes (fun fuel => Device.tcpConnect (Chip.dev slowSched noFaults).bus fuel demoSocket demoRemote) demoDevice :=
  C68_tcp_connect (by decide) slow_answering _ _

/-- It takes a while. -/
example : (Device.tcpConnect (Chip.dev slowSched noFaults).bus 9 demoSocket demoRemote demoDevice).1 = .fuel ∧
    (Device.tcpConnect (Chip.dev slowSched noFaults).bus 1000 demoSocket demoRemote demoDevice).1 = .ok () := by
  decide +kernel

/-- Connected on that chip. -/
def slowConnected : Device Chip Unit :=
  (Device.tcpConnect (Chip.dev slowSched noFaults).bus 1000 demoSocket demoRemote demoDevice).2

/-- C68: a TCP send. -/
example (data : List U8) :
    Finishes (fun fuel => Device.tcpSend (Chip.dev slowSched noFaults).bus fuel demoSocket data) slowConnected :=
  C68_tcp_send (by decide) slow_confirming _ _ (by decide +kernel)

/-- C67: a TCP receive; the RX buffer has 2048 bytes. -/
example : (slowConnected.bus.socks 0).rxSize = 2048 ∧ Finishes
    (fun fuel => Device.tcpReceive (Chip.dev slowSched noFaults).bus fuel demoSocket) ([0, 0, 0], slowConnected) :=
  ⟨by decide +kernel, (C67_tcp (n := 0) (by decide) slowConnected (by decide +kernel) _).2⟩

/-- C68: a UDP send. -/
example (data : List U8) :
    Finishes (fun fuel => Device.udpSend (Chip.dev emitSched noFaults).bus fuel (udpConnected noFaults).1 data)
      (udpConnected noFaults).2 :=
  C68_udp_send (by decide) (fun k => ⟨k, Nat.le_refl _, true, List.mem_cons_self⟩) demo_opened .start data

/-- C68: a UDP send to another address. -/
example (data : List U8) :
    Finishes (fun fuel => Device.udpSendTo (Chip.dev emitSched noFaults).bus fuel (.v4 addrB) data) (udpConnected noFaults) :=
  C68_udp_send_to (by decide) (fun k => ⟨k, Nat.le_refl _, true, List.mem_cons_self⟩) demo_opened .start _ data

/-- C68: an Ethernet frame. -/
example : Finishes (fun fuel => rawDemo.writeFrame (Chip.dev frameSched noFaults).bus fuel [1, 2, 3]) (rawChip noFaults) :=
  C68_raw_write (fun k => ⟨k, Nat.le_refl _, true, by unfold frameSched; split <;> simp⟩)
    (fun k => ⟨k, Nat.le_refl _, 0x10, by decide, by unfold frameSched; split <;> simp⟩)
    (fun k => by unfold frameSched; split <;> simp) rawDemo_opened .start _ (by simp) (by simp)

end W5500.Props
