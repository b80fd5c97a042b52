import Verif.Props.UdpChip
import Verif.Props.Raw
import Verif.Proofs.Disclosure
/-! # What a receive call hands out

C79 A receive call stores nothing in the caller's buffer but the message it delivers. -/

namespace W5500.Props
open W5500.Spec Sock
variable {W E H : Type} {sched : Nat → List (Nat × Act)} {faults : Nat → Option (E × Nat)}
  {sched0 : Nat → List (Nat × Act)} {faults0 : Nat → Option (E × Nat)}

/-- C79 for TCP: what is stored is the beginning of `seen`, the part of the peer's stream that has arrived (it may have
arrived during the call) and was not delivered by earlier calls. -/
theorem C79_tcp (n : Nat) (hn : n < 8) (fuel fuel' : Nat) (remote : SockAddr) (d d1 d2 d3 : Device Chip H)
    (hz : Sock.SizesOk (d.bus.socks n).mem)
    (hconn : Device.tcpConnect (Chip.dev sched faults).bus fuel ⟨Socket.new (BitVec.ofNat 8 n)⟩ remote d = (.ok (), d1))
    (acc del : List U8) (hrun : TcpRun sched faults n d1.bus acc del d2.bus) (buf buf' : List U8) (k : Nat)
    (h : Device.tcpReceive (Chip.dev sched faults).bus fuel' ⟨Socket.new (BitVec.ofNat 8 n)⟩ (buf, d2) = (.ok k, (buf', d3))) :
    ∃ before seen, (d1.bus.socks n).arrived = before ++ (d1.bus.socks n).queue ∧
      (d3.bus.socks n).arrived = before ++ del ++ seen ∧ Stores seen buf buf' := by
  obtain ⟨a, b, c⟩ := C46_buffer _ _ _ _ _ _ _ _ h
  obtain ⟨A, h1, h2⟩ := C46 n hn fuel remote d d1 hz hconn _ _ _ (.receive fuel' buf buf' k hrun h)
  refine ⟨A, buf'.take k ++ (d3.bus.socks n).queue, h1, by rw [h2]; simp only [List.append_assoc], k, ?_, a, ?_⟩
  · rw [List.length_append, List.length_take]; omega
  · rw [List.take_append_of_le_length (by rw [List.length_take]; omega), List.take_take, Nat.min_self, ← c,
      List.take_append_drop]

/-- C79 for MACRAW: nothing is stored, or the beginning of the oldest frame. -/
theorem C79_raw {r : RawDevice} {c0 c c' : Chip} {log : List RawSent} {got : List RawGot}
    (ho : RawOpened sched0 faults0 r c0) (hr : RawRun sched faults r c0 log got c) (queued : List (List U8))
    (hq : (c.socks 0).Frames queued) (fuel : Nat) (buf buf' : List U8) (k : Nat)
    (h : r.readFrame (Chip.dev sched faults).bus fuel (buf, c) = (.ok k, (buf', c'))) :
    buf' = buf ∨ ∃ f rest more, f :: rest = queued ++ more ∧ Stores f buf buf' := by
  rcases C55_call ho hr queued hq fuel buf buf' k h with ⟨_, h1⟩ | ⟨f, rest, more, h1, h2, _⟩
  · exact .inl h1.buf
  · have h3 : k = min buf.length f.length := h2.len
    exact .inr ⟨f, rest, more, h1, k, by omega, by omega, h2.buf⟩

/-- C79 for UDP, partial: it holds if the buffer is exactly as long as the payload. Missing: a longer buffer (with a shorter
one the call panics, C41). -/
theorem C79_udp_partial {n : Nat} (hn : n < 8) {u0 u : UdpSocket} {c0 : Chip} {log : List UdpSent} {got : List UdpGot}
    {d d' : Device Chip H} (ho : UdpOpened sched0 faults0 n u0 c0) (hr : UdpRun sched faults n u0 c0 log got u d.bus)
    (fuel : Nat) (buf buf' : List U8) (k : Nat) (origin : SockAddr)
    (h : Device.udpReceive (Chip.dev sched faults).bus fuel u (buf, d) = (.ok (k, origin), (buf', d'))) :
    ∃ qs dg rest more, Queued qs (d.bus.socks n) ∧ dg :: rest = qs ++ more ∧
      (buf.length = dg.payload.length → Stores dg.payload buf buf') := by
  obtain ⟨qs, dg, rest, more, h1, h2, _, _, h3, _, h4⟩ := C39 hn ho hr fuel buf buf' k origin h
  refine ⟨qs, dg, rest, more, h1, h2, fun hb => ⟨dg.payload.length, Nat.le_refl _, Nat.le_of_eq hb.symm, ?_⟩⟩
  rw [List.take_length, ← hb, List.drop_length, List.append_nil, ← h3, ← hb, ← h4, List.take_length]

/-- What UDP stores, if nothing arrives during the call: `k` bytes of the RX memory behind the header at the read pointer,
whatever they are. -/
theorem C79_udp_stored (n : Nat) (hn : n < 8) (u : UdpSocket) (hu : u.socket = Socket.new (BitVec.ofNat 8 n)) (fuel : Nat)
    (buf buf' : List U8) (d d' : Device Chip H) (hz : GoodSize (d.bus.socks n).rxSize) (hq : NoArrivals sched n d.bus.clock)
    (k : Nat) (origin : SockAddr)
    (h : Device.udpReceive (Chip.dev sched faults).bus fuel u (buf, d) = (.ok (k, origin), (buf', d'))) :
    k ≤ buf.length ∧
    buf' = ring (d.bus.socks n).rxMem (d.bus.socks n).rxSize ((d.bus.socks n).rxRdReg + 8) k ++ buf.drop k := by
  have h1 := (Hoare.bind (udp_receive_copies (sched := sched) (faults := faults) hn hq (d.bus.socks n).rxMem
    (d.bus.socks n).rxSize hz.dvd (d.bus.socks n).rxRdReg u hu fuel buf)
      (f := fun x => pure (x.1, SockAddr.v4 x.2.origin))
      (Q' := fun (x : Nat × SockAddr) s => x.1 ≤ buf.length ∧
        s.1 = ring (d.bus.socks n).rxMem (d.bus.socks n).rxSize ((d.bus.socks n).rxRdReg + 8) x.1 ++ buf.drop x.1)
      fun x => .pure fun _ h => h).run (buf, d.bus) ⟨rfl, Nat.le_refl _, rfl, rfl, rfl⟩
  have h2 := onSockBus_run h
  rw [show _ = _ from h2] at h1
  exact h1

/-- A datagram with twelve bytes for the first owner of the socket, and later one with one byte for the second owner. -/
def secretDgram : Dgram := ⟨[10, 0, 0, 1], [0, 53], [1, 2, 3, 4, 5, 6, 7, 8, 9, 10, 11, 12]⟩
def secretSched (k : Nat) : List (Nat × Act) :=
  if k = 9 then [(0, .datagram secretDgram)] else if k = 52 then [(0, .datagram dgramB)] else []

/-- The first owner has received. -/
def secretTaken : Device Chip Unit :=
  let B := (Chip.dev secretSched noFaults).bus
  let r := Device.udpBind B 5000 (demoUdp, demoDevice)
  (Device.udpReceive B 9 r.2.1 (List.replicate 12 0, r.2.2)).2.2

/-- ... and closed, and the second owner has bound the same socket, and (while the datagram arrives) read the chip version. -/
def secretBound : UdpSocket × Device Chip Unit :=
  let B := (Chip.dev secretSched noFaults).bus
  let r := Device.udpBind B 6000 (demoUdp, (Device.udpClose B demoUdp secretTaken).2)
  (r.2.1, (Device.onBus (W5500.version B) r.2.2).2)

/-- C79 is false: a datagram with the one byte 9 arrives. The second owner gets eight bytes of the first owner's datagram with
it, and is told that nine bytes were received. -/
theorem C79_refuted :
    let r := Device.udpReceive (Chip.dev secretSched noFaults).bus 9 secretBound.1
      ([0, 0, 0, 0, 0, 0, 0, 0, 0, 0], secretBound.2)
    (secretBound.2.bus.socks 0).queue = dgramB.encode ∧ dgramB.payload = [9] ∧
      r.1 = .ok (9, .v4 ⟨⟨10, 0, 0, 2⟩, 54⟩) ∧ r.2.1 = [9, 2, 3, 4, 5, 6, 7, 8, 9, 0] := by
  decide +kernel

/-- The call of `C79_refuted` meets the hypotheses of `C79_udp_stored`. -/
example : ∃ d', Device.udpReceive (Chip.dev secretSched noFaults).bus 9 secretBound.1
      (List.replicate 10 0, secretBound.2) = (.ok (9, .v4 ⟨⟨10, 0, 0, 2⟩, 54⟩), ([9, 2, 3, 4, 5, 6, 7, 8, 9, 0], d')) ∧
    secretBound.1.socket = Socket.new (BitVec.ofNat 8 0) ∧ GoodSize (secretBound.2.bus.socks 0).rxSize ∧
    NoArrivals secretSched 0 secretBound.2.bus.clock := by
  refine ⟨_, run_eq' ?_ ?_, ?_, ?_, ?_⟩
  · decide +kernel
  · decide +kernel
  · decide +kernel
  · unfold GoodSize; decide +kernel
  · intro k hk a ha
    rw [show secretBound.2.bus.clock = 53 by decide +kernel] at hk
    unfold secretSched at ha
    rw [if_neg (by omega), if_neg (by omega)] at ha
    exact nomatch ha

/-- C79_udp_partial is not vacuous: the first owner's call. -/
example : UdpOpened secretSched noFaults 0 (Device.udpBind (Chip.dev secretSched noFaults).bus 5000 (demoUdp, demoDevice)).2.1
    (Device.udpBind (Chip.dev secretSched noFaults).bus 5000 (demoUdp, demoDevice)).2.2.bus :=
  .bind (H := Unit) (u := demoUdp) (d := demoDevice) 5000 (.new _ powerUp_sizes) (run_eq (by decide +kernel))

end W5500.Props
