import Verif.Proofs.Residue
import Verif.Props.UdpChip
import Verif.Props.Raw
/-! # C98: nothing is carried over from one use of a socket to the next

The chip may hold anything when a socket is opened: received bytes nobody read, committed bytes not yet transmitted, of a
connection, a bound socket or a raw device. `d` (or `c0`) is the state right before the opening call, with all that. The
histories `arrived`, `stream` and `packets` are never reset, so they tell what came and left before, and what after. -/

namespace W5500.Props
open W5500 W5500.Spec
variable {E H : Type} {sched : Nat → List (Nat × Act)} {faults : Nat → Option (E × Nat)}

/-- C98, TCP: what is delivered on a connection arrived after its `connect` was called (`during` arrived meanwhile, and is
lost), and what is transmitted on it is what was accepted on it, apart from bytes committed before, which may still leave
while `connect` is busy closing. -/
theorem C98_tcp {n : Nat} (hn : n < 8) (fuel : Nat) (remote : SockAddr) {d d' : Device Chip H}
    (hz : Sock.SizesOk (d.bus.socks n).mem)
    (hconn : Device.tcpConnect (Chip.dev sched faults).bus fuel ⟨Socket.new (BitVec.ofNat 8 n)⟩ remote d = (.ok (), d'))
    {acc del : List U8} {c : Chip} (hrun : TcpRun sched faults n d'.bus acc del c) :
    ∃ during out, (c.socks n).arrived = (d.bus.socks n).arrived ++ during ++ del ++ (c.socks n).queue ∧
      (c.socks n).stream ++ (c.socks n).pending = (d.bus.socks n).stream ++ out ++ acc ∧
      out <+: (d.bus.socks n).pending := by
  obtain ⟨during, out, h1, h2, h3⟩ := tcp_residue hn hz hconn
  obtain ⟨_, _, ⟨S, A, hf⟩, _⟩ := tcpConnect_idle hn hz hconn
  have hi := tcpRun_idle hn hrun hf.1
  have ha := hf.1.rx.core.arrived
  have e : A = (d.bus.socks n).arrived ++ during := List.append_cancel_right (ha.symm.trans h1)
  refine ⟨during, out, ?_, ?_, h2⟩
  · rw [hi.rx.core.arrived, e]
  · rw [hi.tx.out, ← h3, hf.stream.1]

/-- C98, UDP: what is received after a `bind` or `connect` arrived after the call was made, and the packets sent are those
of the calls since then, apart from data committed before. -/
theorem C98_udp {n : Nat} (hn : n < 8) {u u0 u' : UdpSocket} {d d' : Device Chip H} (hu : UdpCalls sched faults n u d.bus)
    (ho : UdpOpening sched faults u d u0 d') {log : List UdpSent} {got : List UdpGot} {c : Chip}
    (hr : UdpRun sched faults n u0 d'.bus log got u' c) :
    (∃ during ds qs, (c.socks n).arrived = (d.bus.socks n).arrived ++ during ++ encAll (ds ++ qs) ∧
      (c.socks n).queue = encAll qs ∧ (∀ x ∈ ds ++ qs, x.Wf) ∧ UdpGot.Among got ds) ∧
    ∃ old sent, (c.socks n).packets = (d.bus.socks n).packets ++ old ++ sent ∧
      (∀ p ∈ old, p.data <:+ (d.bus.socks n).pending) ∧ UdpSent.All (d'.bus.socks n).txSize log sent := by
  have hopened : UdpOpened sched faults n u0 d'.bus := by
    cases ho with
    | bind port h => exact .bind port hu h
    | connect remote h => exact .connect remote hu h
  obtain ⟨during, old, h1, h2, h3⟩ := udp_residue hn (udpCalls_object hn hu) ho
  obtain ⟨A, ds, qs, a1, a2, a3, a4, a5⟩ := C42_partial hn hopened hr
  obtain ⟨sent, b1, b2⟩ := C36_history hn hopened hr
  have e : A = (d.bus.socks n).arrived ++ during := List.append_cancel_right (a1.symm.trans h1)
  exact ⟨⟨during, ds, qs, by rw [a2, e], a3, a4, a5⟩, old, sent, by rw [b2, h2], h3, b1⟩

/-- C98, MACRAW: the frames read arrived after `initialize_macraw` was called, and the frames transmitted are those given to
`write_frame` since then, apart from data committed before. -/
theorem C98_raw {c0 c1 c : Chip} (mac : Mac) {r : RawDevice} (hz : Sock.GoodSize (c0.socks 0).txSize)
    (hinit : Uninit.initializeMacraw (Chip.dev sched faults).bus mac c0 = (.ok r, c1)) {log : List RawSent} {got : List RawGot}
    (hr : RawRun sched faults r c1 log got c) :
    (∃ during fs queued, (c.socks 0).arrived = (c0.socks 0).arrived ++ during ++ encFrames (fs ++ queued) ∧
      (c.socks 0).Frames queued ∧ (∀ f ∈ fs, f.length + 2 < 65536) ∧ RawGot.All got fs) ∧
    ∃ old sent, (c.socks 0).packets = (c0.socks 0).packets ++ old ++ sent ∧
      (∀ p ∈ old, p.data <:+ (c0.socks 0).pending) ∧ RawSent.All log sent := by
  obtain ⟨during, old, h1, h2, h3⟩ := raw_residue mac hz hinit
  obtain ⟨A, first, fs, queued, a1, a2, a3, a4, a5⟩ := C55_history (.init mac hinit) hr
  obtain ⟨sent, b1, b2⟩ := C57_history (.init mac hinit) hr
  rw [a1.2] at h1
  have e : A = (c0.socks 0).arrived ++ during := List.append_cancel_right (a2.symm.trans h1)
  exact ⟨⟨during, fs, queued, by rw [a5, e], a4, a3.2, a3.1⟩, old, sent, by rw [b2, h2], h3, b1⟩

/-! ## A concrete case -/

/-- Connected, with bytes 1, 2, 3 unread and 7, 8, 9 committed but not transmitted. -/
def usedOnce : Device Chip Unit :=
  (Device.tcpSend (Chip.dev demoSched noFaults).bus 9 demoSocket [7, 8, 9] demoConnected).2

/-- While the socket is connected a second time, the byte 7 leaves first and the byte 4 arrives first; once it is connected,
5 and 6 arrive, and all that is committed is transmitted. -/
def againSched (k : Nat) : List (Nat × Act) :=
  if k ≤ usedOnce.bus.clock then [(0, .transmit 1), (0, .arrive [4])]
  else if k < usedOnce.bus.clock + 16 then []
  else [(0, .status 0x17), (0, .raise 0x10), (0, .transmit 9)] ++
    if k = usedOnce.bus.clock + 20 then [(0, .arrive [5, 6])] else []

/-- Connected for the second time. -/
def usedTwice : Device Chip Unit :=
  (Device.tcpConnect (Chip.dev againSched noFaults).bus 100 demoSocket demoRemote usedOnce).2

/-- The hypotheses of `C98_tcp` are met, with something left over in both directions. -/
example : (usedOnce.bus.socks 0).queue = [1, 2, 3] ∧ (usedOnce.bus.socks 0).pending = [7, 8, 9] ∧
    (Device.tcpConnect (Chip.dev againSched noFaults).bus 100 demoSocket demoRemote usedOnce).1 = .ok () ∧
    (usedTwice.bus.socks 0).stream = [7] ∧ (usedTwice.bus.socks 0).arrived = [1, 2, 3, 4] := by
  decide +kernel

example : ∃ c, TcpRun againSched noFaults 0 usedTwice.bus [40] [5, 6] c ∧ (c.socks 0).stream = [7, 40] ∧
    (c.socks 0).arrived = [1, 2, 3, 4, 5, 6] := by
  have h1 := TcpRun.send (sched := againSched) (faults := noFaults) (d := usedTwice) (n := 0) 9 [40] 1 .start
    (run_eq (show (Device.tcpSend (Chip.dev againSched noFaults).bus 9 demoSocket [40] usedTwice).1 = .ok 1 by
      decide +kernel))
  have h2 := TcpRun.receive 9 [0, 0, 0, 0] [5, 6, 0, 0] 2 h1
    (run_eq' (show (Device.tcpReceive (Chip.dev againSched noFaults).bus 9 demoSocket ([0, 0, 0, 0], _)).1 = .ok 2 by
      decide +kernel) (by decide +kernel))
  exact ⟨_, h2, by decide +kernel, by decide +kernel⟩

/-- A datagram for port 99, and a frame. -/
def laterDgram : Dgram := ⟨[10, 0, 0, 7], [0, 53], [5, 6]⟩
def laterSched (k : Nat) : List (Nat × Act) :=
  [(0, .emit true), (0, .raise 0x10)] ++
    if k = usedOnce.bus.clock then [(0, .transmit 2), (0, .arrive [4])]
    else if k = usedOnce.bus.clock + 9 then [(0, .datagram laterDgram)]
    else if k = usedOnce.bus.clock + 25 then [(0, .frame [5, 6, 7])] else []

/-- The same for a UDP socket on the hardware socket of the connection above: of its bytes, 7 and 8 still leave on the
connection, and 9 as a packet (the socket is switched to UDP before the OPEN command empties the buffer). -/
def usedUdp : UdpSocket × Device Chip Unit := (Device.udpBind (Chip.dev laterSched noFaults).bus 99 (demoUdp, usedOnce)).2

example : UdpCalls laterSched noFaults 0 demoUdp usedOnce.bus ∧
    UdpOpening laterSched noFaults demoUdp usedOnce usedUdp.1 usedUdp.2 ∧
    (usedUdp.2.bus.socks 0).stream = [7, 8] ∧ (usedUdp.2.bus.socks 0).packets.map (·.data) = [[9]] ∧
    (usedUdp.2.bus.socks 0).arrived = [1, 2, 3, 4] ∧
    (Device.udpReceive (Chip.dev laterSched noFaults).bus 9 usedUdp.1 ([0, 0], usedUdp.2)).1 =
      .ok (2, .v4 ⟨⟨10, 0, 0, 7⟩, 53⟩) ∧
    (Device.udpReceive (Chip.dev laterSched noFaults).bus 9 usedUdp.1 ([0, 0], usedUdp.2)).2.1 = [5, 6] :=
  ⟨.new _ (by unfold Sock.SizesOk Sock.GoodSize; decide +kernel), .bind 99 (run_eq (by decide +kernel)), by decide +kernel,
    by decide +kernel, by decide +kernel, by decide +kernel, by decide +kernel⟩

/-- And for a raw device. -/
example :
    let r := Uninit.initializeMacraw (Chip.dev laterSched noFaults).bus ⟨2, 0, 0, 0, 0, 1⟩ usedOnce.bus
    r.1 = .ok ⟨Socket.new 0⟩ ∧ (r.2.socks 0).stream = [7, 8] ∧
    (rawDemo.readFrame (Chip.dev laterSched noFaults).bus 9 ([0, 0, 0, 0], r.2)).1 = .ok 3 ∧
    (rawDemo.readFrame (Chip.dev laterSched noFaults).bus 9 ([0, 0, 0, 0], r.2)).2.1 = [5, 6, 7, 0] := by
  decide +kernel

end W5500.Props
