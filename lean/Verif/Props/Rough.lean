import Verif.Proofs.Rough
import Verif.Props.Cases8
/-! # C131: calls that fail early do no harm

Any number of calls may fail, in any way, if each made few enough transfers: those in which it had not yet moved a pointer register. The data of such a
call is neither sent nor taken from what is queued, and what is said about histories without them (C36, C42, C45, C46, C55, C57) holds. -/

namespace W5500.Props
open W5500.Spec Sock
variable {E H : Type} {sched : Nat → List (Nat × Act)} {faults : Nat → Option (E × Nat)}
  {sched0 : Nat → List (Nat × Act)} {faults0 : Nat → Option (E × Nat)}

/-- C131, TCP: the peer has got, or is still to get, what the `send` calls accepted that returned `Ok`, and nothing else; the `receive` calls that
returned `Ok` brought what arrived, without a gap. -/
theorem C131_tcp {n : Nat} (hn : n < 8) (fuel : Nat) (remote : SockAddr) (d d' : Device Chip H) (hz : SizesOk (d.bus.socks n).mem)
    (hconn : Device.tcpConnect (Chip.dev sched0 faults0).bus fuel ⟨Socket.new (BitVec.ofNat 8 n)⟩ remote d = (.ok (), d'))
    (acc del : List U8) (c : Chip) (hrun : TcpRough sched faults n d'.bus acc del c) :
    (c.socks n).stream ++ (c.socks n).pending = (d'.bus.socks n).stream ++ acc ∧
    ∃ before, (d'.bus.socks n).arrived = before ++ (d'.bus.socks n).queue ∧ (c.socks n).arrived = before ++ del ++ (c.socks n).queue :=
  ⟨C45 n hn fuel remote d d' hz hconn acc del c (tcpRough_run hn hrun).past, C46 n hn fuel remote d d' hz hconn acc del c (tcpRough_run hn hrun).past⟩

/-- C131, UDP: since the socket was opened the chip has sent the pieces of the data of the sends that returned `Ok` to their destinations, in order, and
no other packet; the calls of `receive` that returned `Ok` brought datagrams in order of arrival, every one a different datagram (some may be lost, see
C42; those that are not brought and not lost are queued). -/
theorem C131_udp {n : Nat} (hn : n < 8) {u0 u : UdpSocket} {c0 c : Chip} {sent : List (SockAddr4 × List U8)} {got : List UdpGot}
    (ho : UdpOpened sched0 faults0 n u0 c0) (hr : UdpRough sched faults n u0 c0 sent got u c) :
    (∃ ps, UdpSent.All (c0.socks n).txSize (sent.map fun x => ⟨x.1, x.2, true⟩) ps ∧ (c.socks n).packets = (c0.socks n).packets ++ ps) ∧
    ∃ A ds qs, (c0.socks n).arrived = A ++ (c0.socks n).queue ∧ (c.socks n).arrived = A ++ encAll (ds ++ qs) ∧
      (c.socks n).queue = encAll qs ∧ (∀ d ∈ ds ++ qs, d.Wf) ∧ UdpGot.Among got ds := by
  obtain ⟨h, log, run⟩ := udpRough_run hn ho hr
  exact ⟨h, C42_partial hn ho run⟩

/-- C131, MACRAW: since the device was opened the chip has sent the frames for which `write_frame` returned `Ok`, every one once, in order, and no
other; and every frame that arrived was brought by one call of `read_frame`, or is still queued. -/
theorem C131_raw {r : RawDevice} {c0 c : Chip} {sent : List (List U8)} {got : List RawGot} (ho : RawOpened sched0 faults0 r c0)
    (hr : RawRough sched faults r c0 sent got c) :
    (∃ ps, (c.socks 0).packets = (c0.socks 0).packets ++ ps ∧ ps.map Packet.data = sent ∧ ∀ p ∈ ps, p.delivered = true) ∧
    ∃ A first fs queued, (c0.socks 0).Frames first ∧ (c0.socks 0).arrived = A ++ encFrames first ∧
      (RawGot.All got fs ∧ ∀ f ∈ fs, f.length + 2 < 65536) ∧ (c.socks 0).Frames queued ∧
      (c.socks 0).arrived = A ++ encFrames (fs ++ queued) := by
  obtain ⟨hk, A, h2, _⟩ := raw_inv ho (RawRun.start (sched := sched0) (faults := faults0))
  obtain ⟨⟨ps, fs, g1, g2, g3, g4⟩, log, run⟩ := rawRough_run hk (K := (c0.socks 0).packets) (A := A) ⟨[], [], rfl, nofun, ⟨.nil, nofun⟩, by
    rw [List.append_nil, show encFrames [] = [] from rfl, List.append_nil]; exact h2⟩ hr
  exact ⟨⟨ps, g4.busy.base.out, g1, g2⟩, C55_history ho run⟩

/-! Cases: a call fails in the last transfer allowed, and is made again. -/

def sentAgain : Device Chip Unit := (Device.tcpSend (Chip.dev drainSched (faultAt 15)).bus 9 demoSocket [7, 8, 9] halfSent).2
theorem sent_again : Device.tcpSend (Chip.dev drainSched (faultAt 15)).bus 9 ⟨Socket.new (BitVec.ofNat 8 0)⟩ [7, 8, 9] halfSent = (.ok 3, sentAgain) :=
  run_eq (r := Device.tcpSend (Chip.dev drainSched (faultAt 15)).bus 9 demoSocket [7, 8, 9] halfSent) (by decide +kernel)
attribute [irreducible] sentAgain

example : (sentAgain.bus.socks 0).stream ++ (sentAgain.bus.socks 0).pending = [7, 8, 9] := by
  have h := (C131_tcp (n := 0) (by decide) 100 demoRemote demoDevice drainConnected powerUp_sizes drain_connect [7, 8, 9] [] _
    (.send 9 [7, 8, 9] 3 (.failedSend 9 [7, 8, 9] _ (.start (sched := drainSched) (faults := faultAt 15)) half_sent nofun (by decide +kernel)) sent_again)).1
  rwa [show (drainConnected.bus.socks 0).stream = [] by decide +kernel, List.nil_append] at h

def receivedAgain : List U8 × Device Chip Unit :=
  (Device.tcpReceive (Chip.dev demoSched (faultAt 18)).bus 9 demoSocket ([0, 0], halfReceived.2)).2
theorem received_again : Device.tcpReceive (Chip.dev demoSched (faultAt 18)).bus 9 ⟨Socket.new (BitVec.ofNat 8 0)⟩ ([0, 0], halfReceived.2) =
    (.ok 2, (receivedAgain.1, receivedAgain.2)) := by
  unfold receivedAgain
  exact run_eta (r := Device.tcpReceive (Chip.dev demoSched (faultAt 18)).bus 9 demoSocket ([0, 0], halfReceived.2)) (by decide +kernel)
attribute [irreducible] receivedAgain

example := C131_tcp (n := 0) (by decide) 100 demoRemote demoDevice demoConnected powerUp_sizes demo_connect [] _ _
  (.receive 9 [0, 0] _ 2 (.failedReceive 9 [9, 9] _ _ (.other (.start (sched := demoSched) (faults := faultAt 18)) demo_arrives) half_received nofun
    (by decide +kernel)) received_again)

def udpAgain : Device Chip Unit := (Device.udpSend (Chip.dev emitSched (faultAt 13)).bus 9 (udpConnected noFaults).1 [7, 8, 9] halfUdp).2
theorem udp_again : Device.udpSend (Chip.dev emitSched (faultAt 13)).bus 9 (udpConnected noFaults).1 [7, 8, 9] halfUdp = (.ok (), udpAgain) := by
  unfold udpAgain
  exact run_eq (by decide +kernel)
attribute [irreducible] udpAgain

example := C131_udp (n := 0) (by decide) demo_opened (.send 9 [7, 8, 9] addrA (.failedSend 9 [7, 8, 9] _ (.start (sched := emitSched) (faults := faultAt 13))
  half_udp nofun (by decide +kernel)) udp_again (by decide +kernel))

def dgramAgain : List U8 × Device Chip Unit :=
  (Device.udpReceive (Chip.dev (arriveSched [dgramA, dgramB]) (faultAt 14)).bus 9 (arriveBound [dgramA, dgramB]).1 ([0, 0, 0, 0], halfDgram.2)).2
theorem dgram_again : Device.udpReceive (Chip.dev (arriveSched [dgramA, dgramB]) (faultAt 14)).bus 9 (arriveBound [dgramA, dgramB]).1
    ([0, 0, 0, 0], halfDgram.2) = (.ok (4, .v4 addrA), (dgramAgain.1, dgramAgain.2)) := by
  unfold dgramAgain
  exact run_eta (by decide +kernel)
attribute [irreducible] dgramAgain

example := C131_udp (n := 0) (by decide) arrive_opened (.receive 9 [0, 0, 0, 0] _ 4 (.v4 addrA) (.failedReceive 9 [9, 9] _ _ (.other
  (.start (sched := arriveSched [dgramA, dgramB]) (faults := faultAt 14)) arrive_arrives) half_dgram nofun (by decide +kernel)) dgram_again)

def writtenAgain : Chip := (rawDemo.writeFrame (Chip.dev frameSched (faultAt 20)).bus 9 [7, 8] halfWritten).2
theorem written_again : rawDemo.writeFrame (Chip.dev frameSched (faultAt 20)).bus 9 [7, 8] halfWritten = (.ok 2, writtenAgain) := by
  unfold writtenAgain
  exact run_eq (by decide +kernel)
attribute [irreducible] writtenAgain

example : (writtenAgain.socks 0).packets.map Packet.data = [[7, 8]] := by
  obtain ⟨ps, h1, h2, _⟩ := (C131_raw rawDemo_opened (.writeFrame 9 [7, 8] 2 (.failedWrite 9 [7, 8] _ (.start (sched := frameSched) (faults := faultAt 20))
    half_written nofun (by decide +kernel)) written_again)).1
  rw [h1, show ((rawChip noFaults).socks 0).packets = [] by decide +kernel]
  exact h2

def frameAgain : List U8 × Chip := (rawDemo.readFrame (Chip.dev frameSched (faultAt 22)).bus 9 ([0, 0, 0, 0], halfFrame.2)).2
theorem frame_again : rawDemo.readFrame (Chip.dev frameSched (faultAt 22)).bus 9 ([0, 0, 0, 0], halfFrame.2) = (.ok 4, (frameAgain.1, frameAgain.2)) := by
  unfold frameAgain
  exact run_eta (by decide +kernel)
attribute [irreducible] frameAgain

example := C131_raw rawDemo_opened (.readFrame 9 [0, 0, 0, 0] _ 4 (.failedRead 9 [9, 9] _ _ (.other (.start (sched := frameSched) (faults := faultAt 22))
  frame_arrives) half_frame nofun (by decide +kernel)) frame_again)

/-! ## One transfer more -/

/-- Transfer number `i` fails after `k` of its bytes (three of them are the header). -/
def faultIn (i k : Nat) : Nat → Option (Unit × Nat) := fun j => if j = i then some ((), k) else none

/-- C131, the numbers are exact for TCP. A `send` that failed in its fifth transfer: the next one returns `Ok(1)`, but the peer gets the three bytes of the
failed call before this one. A `receive` that failed in its seventh transfer: the next one skips two bytes, and brings one that never arrived. -/
theorem C131_exact_tcp :
    (let B := (Chip.dev demoSched (faultIn 16 5)).bus
     let r1 := Device.tcpSend B 9 demoSocket [7, 8, 9] drainConnected
     let r2 := Device.tcpSend B 9 demoSocket [5] r1.2
     r1.1 = .err (.other ()) ∧ r1.2.bus.txn = drainConnected.bus.txn + 5 ∧ r2.1 = .ok 1 ∧
     (drainConnected.bus.socks 0).stream ++ (drainConnected.bus.socks 0).pending = [] ∧
     (r2.2.bus.socks 0).stream ++ (r2.2.bus.socks 0).pending = [7, 8, 9, 5]) ∧
    (let B := (Chip.dev demoSched (faultIn 19 5)).bus
     let r1 := Device.tcpReceive B 9 demoSocket ([9, 9], demoArrived)
     let r2 := Device.tcpReceive B 9 demoSocket ([9, 9], r1.2.2)
     r1.1 = .err (.other ()) ∧ r1.2.2.bus.txn = demoArrived.bus.txn + 7 ∧ r2.1 = .ok 2 ∧ r2.2.1 = [3, 0] ∧
     (r2.2.2.bus.socks 0).arrived = [1, 2, 3]) := by
  decide +kernel

/-- C131, the numbers are exact for UDP. A `send` that failed in its seventh transfer: its data leaves in the packet of the next one. A `receive` that
failed in its eighth transfer: the next one brings a datagram from address 0 that never arrived. -/
theorem C131_exact_udp :
    (let B := (Chip.dev emitSched (faultIn 14 5)).bus
     let u := (udpConnected noFaults).1
     let r1 := Device.udpSend B 9 u [7, 8, 9] (udpConnected noFaults).2
     let r2 := Device.udpSend B 9 u [5] r1.2
     r1.1 = .err (.other (.other ())) ∧ r1.2.bus.txn = (udpConnected noFaults).2.bus.txn + 7 ∧ r2.1 = .ok () ∧
     (r2.2.bus.socks 0).packets.map Packet.data = [[7, 8, 9, 5]]) ∧
    (let B := (Chip.dev (arriveSched [dgramA, dgramB]) (faultIn 15 5)).bus
     let u := (arriveBound [dgramA, dgramB]).1
     let r1 := Device.udpReceive B 9 u ([0, 0, 0, 0], arrived)
     let r2 := Device.udpReceive B 9 u ([0, 0, 0, 0], r1.2.2)
     r1.1 = .err (.other (.other ())) ∧ r1.2.2.bus.txn = arrived.bus.txn + 8 ∧ r2.1 = .ok (4, .v4 ⟨⟨0, 0, 0, 0⟩, 0⟩) ∧
     (r2.2.2.bus.socks 0).arrived = encAll [dgramA, dgramB]) := by
  decide +kernel

/-- C131 for MACRAW, one transfer more. A `read_frame` that failed in its fifth transfer (the buffer is empty): the next one brings the second frame, the
first is lost. A `write_frame` that failed in its fifth transfer: its data leaves in front of the next frame. -/
theorem C131_exact_raw :
    (let B := (Chip.dev frameSched (faultIn 23 5)).bus
     let r1 := rawDemo.readFrame B 9 ([], rawArrived)
     let r2 := rawDemo.readFrame B 9 ([0, 0, 0, 0], r1.2.2)
     r1.1 = .err () ∧ r1.2.2.txn = rawArrived.txn + 5 ∧ r2.1 = .ok 2 ∧ r2.2.1 = [5, 6, 0, 0] ∧
     (r2.2.2.socks 0).arrived = encFrames [[1, 2, 3, 4], [5, 6]]) ∧
    (let B := (Chip.dev frameSched (faultIn 22 5)).bus
     let r1 := rawDemo.writeFrame B 9 [7, 8] (rawChip noFaults)
     let r2 := rawDemo.writeFrame B 9 [5] r1.2
     r1.1 = .err () ∧ r1.2.txn = (rawChip noFaults).txn + 5 ∧ r2.1 = .ok 1 ∧ (r2.2.socks 0).packets.map Packet.data = [[7, 8, 5]]) := by
  decide +kernel

end W5500.Props
