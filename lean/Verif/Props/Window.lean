import Verif.Props.Keep
import Verif.Props.ReadAll
/-! # When a wake-up can be lost

C77 says that what waits when a `receive` returns `Ok` is announced. It is false; here is how much can be missed: no more than comes in the
few SPI bytes between reading the received size and clearing RECV, at the end of the call. -/

namespace W5500.Props
open W5500.Spec Sock
variable {E H : Type} {sched : Nat → List (Nat × Act)} {faults : Nat → Option (E × Nat)}
  {sched0 : Nat → List (Nat × Act)} {faults0 : Nat → Option (E × Nat)}

/-- C77, partial, UDP: whatever waits after a `receive` that returned `Ok` has come in the last 18 SPI bytes of the call, not counting those
that fill the buffer. -/
theorem C77_udp_window_partial {n : Nat} (hn : n < 8) (hf : ∀ i, faults i = none) {u0 u : UdpSocket} {c0 : Chip} {log : List UdpSent}
    {got : List UdpGot} {d d' : Device Chip H} (ho : UdpOpened sched0 faults0 n u0 c0) (hr : UdpRun sched faults n u0 c0 log got u d.bus)
    (fuel : Nat) (buf buf' : List U8) (x : Nat × SockAddr)
    (h : Device.udpReceive (Chip.dev sched faults).bus fuel u (buf, d) = (.ok x, (buf', d'))) :
    ∃ t, d.bus.clock ≤ t ∧ t ≤ d'.bus.clock ∧ d'.bus.clock ≤ t + (buf.length + 18) ∧
      (d'.bus.socks n).queue.length ≤ load sched n t (d'.bus.clock - t) := by
  obtain ⟨A, h0⟩ := opened_inv hn ho
  obtain ⟨hu, _, _, _, _, _, hi⟩ := udpRun_inv hn h0 hr
  rw [Sock.queue_length]
  exact receive_leaves hn hf hu hi h

/-- C77, partial, TCP: if RECV was pending and the buffer was not filled, whatever waits after a `receive` that returned `Ok` has come in the
last 10 SPI bytes of the call, not counting those that fill the buffer. -/
theorem C77_tcp_window_partial {n : Nat} (hn : n < 8) (hf : ∀ i, faults i = none) (fuel fuel' : Nat) (remote : SockAddr)
    (d d1 d2 d3 : Device Chip H) (hz : Sock.SizesOk (d.bus.socks n).mem)
    (hconn : Device.tcpConnect (Chip.dev sched faults).bus fuel ⟨Socket.new (BitVec.ofNat 8 n)⟩ remote d = (.ok (), d1))
    (acc del : List U8) (hrun : TcpRun sched faults n d1.bus acc del d2.bus) (hpend : (d2.bus.socks n).Announced)
    (buf buf' : List U8) (k : Nat)
    (h : Device.tcpReceive (Chip.dev sched faults).bus fuel' ⟨Socket.new (BitVec.ofNat 8 n)⟩ (buf, d2) = (.ok k, (buf', d3)))
    (hk : k < buf.length) :
    ∃ t, d2.bus.clock ≤ t ∧ t ≤ d3.bus.clock ∧ d3.bus.clock ≤ t + (min buf.length (d2.bus.socks n).rxSize + 10) ∧
      (d3.bus.socks n).queue.length ≤ load sched n t (d3.bus.clock - t) := by
  obtain ⟨_, _, ⟨S, A, hfr⟩, _⟩ := tcpConnect_idle hn hz hconn
  have h0 := tcpRun_idle hn hrun hfr.1
  obtain ⟨bs, h2, h3, h4, h5, _⟩ := (tcp_receive hn (S ++ acc) (A ++ del) 0 False _ fuel' buf).ok
    (s := (buf, d2.bus)) ⟨rfl, h0, Nat.zero_le _, fun h => h.elim, rfl⟩ (onSockBus_run h)
  rw [Sock.queue_length]
  exact tcp_window hn hf h0 h5 (by rw [List.length_append, h2]) h hk hpend

theorem late_opened : UdpOpened lateArrival noFaults 0 lateBound.1 lateBound.2.bus :=
  .bind (H := Unit) (u := demoUdp) (d := demoDevice) 5000 (.new _ powerUp_sizes) (by
    rw [lateBound]
    exact run_eq (by decide +kernel))

theorem ok_eq {ε α σ τ : Type} {x : Res ε α × σ × τ} {a : α} (h : x.1 = .ok a) : x = (.ok a, (x.2.1, x.2.2)) := by
  rw [← h]

/-- C77_udp_window_partial: datagram B comes during the call that delivers A, and waits; it has come in those last bytes. -/
example : ∃ d', Device.udpReceive (Chip.dev lateArrival noFaults).bus 9 lateBound.1 ([0, 0], lateBound.2) =
      (.ok (2, .v4 ⟨⟨10, 0, 0, 1⟩, 53⟩), d') ∧ (d'.2.bus.socks 0).queue = dgramB.encode ∧
    ∃ t, t ≤ d'.2.bus.clock ∧ d'.2.bus.clock ≤ t + 20 ∧ dgramB.encode.length ≤ load lateArrival 0 t (d'.2.bus.clock - t) := by
  have h1 := ok_eq C77_refuted.1
  obtain ⟨t, _, h2, h3, h4⟩ := C77_udp_window_partial (n := 0) (by decide) (fun _ => rfl) late_opened .start 9 _ _ _ h1
  have hq := C77_refuted.2.1
  rw [lateReceived] at hq
  exact ⟨_, h1, hq, t, h2, h3, by rw [← hq]; exact h4⟩

/-- C77_tcp_window_partial: the three bytes, and a buffer of four. -/
example : ∃ b' d', Device.tcpReceive (Chip.dev demoSched noFaults).bus 9 demoSocket ([0, 0, 0, 0], demoArrived) = (.ok 3, (b', d')) ∧
    ∃ t, d'.bus.clock ≤ t + 14 ∧ (d'.bus.socks 0).queue.length ≤ load demoSched 0 t (d'.bus.clock - t) := by
  have hc : Device.tcpConnect (Chip.dev demoSched noFaults).bus 100 demoSocket demoRemote demoDevice =
      (.ok (), demoConnected) := by
    rw [demoConnected]
    exact run_eq (by decide +kernel)
  have hr := later_tcp (TcpRun.start (sched := demoSched) (c := demoConnected.bus))
  have h : (Device.tcpReceive (Chip.dev demoSched noFaults).bus 9 demoSocket ([0, 0, 0, 0], demoArrived)).1 = .ok 3 := by decide +kernel
  have h1 := ok_eq h
  obtain ⟨t, _, _, h2, h3⟩ := C77_tcp_window_partial (n := 0) (faults := noFaults) (by decide) (fun _ => rfl) 100 9 demoRemote demoDevice
    demoConnected demoArrived _ powerUp_sizes hc [] [] (by rw [demoArrived]; exact hr) (by decide +kernel) [0, 0, 0, 0] _ 3 h1 (by decide)
  exact ⟨_, _, h1, t, Nat.le_trans h2 (Nat.add_le_add_left (by decide +kernel) t), h3⟩

end W5500.Props
