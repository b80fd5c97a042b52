import Verif.Props.Rough
import Verif.Props.Retry
/-! # C134: when failures end

After any history in which calls failed early (C131), when transfers do not fail any more, the next call gets through and does what it should do, as if no
call had ever failed. So a program that makes a call again until it returns `Ok` has it done, once. -/

namespace W5500.Props
open W5500.Spec Sock
variable {E H : Type} {sched : Nat → List (Nat × Act)} {faults : Nat → Option (E × Nat)}
  {sched0 : Nat → List (Nat × Act)} {faults0 : Nat → Option (E × Nat)}

/-! ## TCP -/

/-- C134, TCP `send`: the data is accepted (in as many calls as it takes), and what the peer has got, or is to get, since the connection was opened are the bytes
accepted before and this data. -/
theorem C134_tcp_send {n : Nat} (hn : n < 8) (fuel : Nat) (remote : SockAddr) (d0 d1 d : Device Chip H)
    (hz : SizesOk (d0.bus.socks n).mem)
    (hconn : Device.tcpConnect (Chip.dev sched0 faults0).bus fuel ⟨Socket.new (BitVec.ofNat 8 n)⟩ remote d0 = (.ok (), d1))
    (acc del : List U8) (hrun : TcpRough sched faults n d1.bus acc del d.bus) (data : List U8)
    (hf : NoFaultsFrom faults d.bus) (hs : StatusFrom sched n (· = 0x17) d.bus) (hsr : (d.bus.socks n).sr = 0x17)
    (hc : Confirming sched n) (hd : Draining sched n) :
    ∃ d' : Device Chip H,
      Succeeds (fun fuel => sendWhole (Device.tcpSend (Chip.dev sched faults).bus fuel ⟨Socket.new (BitVec.ofNat 8 n)⟩) fuel data) d () d' ∧
      (d'.bus.socks n).stream ++ (d'.bus.socks n).pending = (d1.bus.socks n).stream ++ acc ++ data := by
  let p : Plan E := ⟨sched, faults⟩
  have run := tcpRough_run hn hrun
  obtain ⟨d', ⟨hne, N, hN⟩, h2, _, _⟩ := C95 (sched := (p.since d.bus).sched) (faults := (p.since d.bus).faults) hn hf.since hs.since hc.since
    hd.since fuel remote d0 d1 d hz hconn acc del run.past hsr data
  refine ⟨d', ⟨hne, N, fun fuel h => ?_⟩, by rw [h2, (C131_tcp hn fuel remote d0 d1 hz hconn acc del _ hrun).1]⟩
  exact (from_dev (rel_sendWhole (fun x => Rel.onBus (rel_tcpSend (p.since_respects d.bus) Cut.eq (t := ⟨Socket.new (BitVec.ofNat 8 n)⟩)
    trivial trivial fuel (rfl : x = x))) fuel data) (d := d) (Nat.le_refl _) (Nat.le_refl _)).1.trans (hN fuel h)

/-- C134, TCP `receive`: the call returns `Ok`, and goes on where the calls before that returned `Ok` had got to. If RECV is announced, then as many bytes come as
wait, or the buffer holds. -/
theorem C134_tcp_receive {n : Nat} (hn : n < 8) (fuel : Nat) (remote : SockAddr) (d0 d1 d : Device Chip H)
    (hz : SizesOk (d0.bus.socks n).mem)
    (hconn : Device.tcpConnect (Chip.dev sched0 faults0).bus fuel ⟨Socket.new (BitVec.ofNat 8 n)⟩ remote d0 = (.ok (), d1))
    (acc del : List U8) (hrun : TcpRough sched faults n d1.bus acc del d.bus)
    (hf : NoFaultsFrom faults d.bus) (hs : StatusFrom sched n (· = 0x17) d.bus) (hsr : (d.bus.socks n).sr = 0x17) (buf : List U8) :
    ∃ (k : Nat) (buf' : List U8) (d' : Device Chip H),
      Succeeds (fun fuel => Device.tcpReceive (Chip.dev sched faults).bus fuel ⟨Socket.new (BitVec.ofNat 8 n)⟩) (buf, d) k (buf', d') ∧
      ((d.bus.socks n).ir &&& 4 ≠ 0 → min buf.length (d.bus.socks n).queue.length ≤ k) ∧
      k ≤ buf.length ∧ buf'.length = buf.length ∧
      ∃ before, (d1.bus.socks n).arrived = before ++ (d1.bus.socks n).queue ∧
        (d'.bus.socks n).arrived = before ++ (del ++ buf'.take k) ++ (d'.bus.socks n).queue := by
  let p : Plan E := ⟨sched, faults⟩
  obtain ⟨k, buf', d', h1, h2, h3, h4, ⟨before, h5, h6⟩, _⟩ := C76_tcp_receive (sched := (p.since d.bus).sched) (faults := (p.since d.bus).faults) hn
    hf.since hs.since fuel remote d0 d1 d hz hconn acc del (tcpRough_run hn hrun).past hsr buf
  obtain ⟨A, g1, g2⟩ := (C131_tcp hn fuel remote d0 d1 hz hconn acc del _ hrun).2
  have e1 : before = A ++ del := List.append_cancel_right (h5.symm.trans g2)
  subst e1
  exact ⟨k, buf', d', succeedsWith_since p (m := fun fuel _ B => Device.tcpReceive B fuel ⟨Socket.new (BitVec.ofNat 8 n)⟩)
    (fun fuel => .onSockBus (play_tcpReceive _ fuel buf)) h1, h2, h3, h4, A, g1, by rw [h6, List.append_assoc A]⟩

/-! ## UDP -/

/-- C134, UDP `send`: the call returns `Ok`; the packets that left since the socket was opened are those of the sends that returned `Ok` before, and all of the
data, for the address. -/
theorem C134_udp_send {n : Nat} (hn : n < 8) {u0 u : UdpSocket} {c0 : Chip} {sent : List (SockAddr4 × List U8)} {got : List UdpGot} {d : Device Chip H}
    (ho : UdpOpened sched0 faults0 n u0 c0) (hr : UdpRough sched faults n u0 c0 sent got u d.bus) (dst : SockAddr4)
    (hdst : u.destination = some dst) (data : List U8)
    (hf : NoFaultsFrom faults d.bus) (hs : StatusFrom sched n (· = 0x22) d.bus) (hl : LosslessFrom sched n d.bus) (he : Emitting sched n)
    (hsr : (d.bus.socks n).sr = 0x22) (hq : (d.bus.socks n).NoTimeout) :
    ∃ d' : Device Chip H, Succeeds (fun fuel => Device.udpSend (Chip.dev sched faults).bus fuel u data) d () d' ∧
      ∃ ps, UdpSent.All (c0.socks n).txSize (sent.map fun x => ⟨x.1, x.2, true⟩) ps ∧
        (d'.bus.socks n).packets = (c0.socks n).packets ++ ps ++
          (pieces (d.bus.socks n).txSize data).map (fun p => ⟨(wire dst).1, (wire dst).2, p, true⟩) := by
  let p : Plan E := ⟨sched, faults⟩
  obtain ⟨⟨ps, g1, g2⟩, log, run⟩ := udpRough_run hn ho hr
  obtain ⟨d', h1, h2, _⟩ := C76_udp_send (sched := (p.since d.bus).sched) (faults := (p.since d.bus).faults) hn hf.since hs.since he.since hl.since
    ho run.past hsr hq dst hdst data
  exact ⟨d', succeeds_since p (m := fun fuel _ B => Device.udpSend B fuel u data) (fun fuel => .onBus (play_udpSend u fuel data)) h1, ps, g1,
    by rw [h2, g2]⟩

/-- C134, UDP `receive`: if a datagram is queued, and RECV announced, a call with a buffer that has room for it returns `Ok`, and brings it. -/
theorem C134_udp_receive {n : Nat} (hn : n < 8) {u0 u : UdpSocket} {c0 : Chip} {sent : List (SockAddr4 × List U8)} {got : List UdpGot} {d : Device Chip H}
    (ho : UdpOpened sched0 faults0 n u0 c0) (hr : UdpRough sched faults n u0 c0 sent got u d.bus) (dg : Dgram) (rest : List Dgram)
    (hq : (d.bus.socks n).Queued (dg :: rest)) (hir : (d.bus.socks n).ir &&& 4 ≠ 0)
    (hf : NoFaultsFrom faults d.bus) (hs : StatusFrom sched n (· = 0x22) d.bus) (hsr : (d.bus.socks n).sr = 0x22)
    (buf : List U8) (hb : buf ≠ []) (hlen : dg.payload.length ≤ buf.length) :
    ∃ (k : Nat) (a : SockAddr4) (buf' : List U8) (d' : Device Chip H),
      Succeeds (fun fuel => Device.udpReceive (Chip.dev sched faults).bus fuel u) (buf, d) (k, .v4 a) (buf', d') ∧
      wire a = (dg.ip, dg.port) ∧ buf'.take dg.payload.length = dg.payload := by
  let p : Plan E := ⟨sched, faults⟩
  obtain ⟨_, log, run⟩ := udpRough_run hn ho hr
  obtain ⟨k, a, buf', d', h1, h2, h3, _⟩ := C76_udp_receive (sched := (p.since d.bus).sched) (faults := (p.since d.bus).faults) hn hf.since hs.since
    ho run.past hsr dg rest hq hir buf hb hlen
  exact ⟨k, a, buf', d', succeedsWith_since p (m := fun fuel _ B => Device.udpReceive B fuel u)
    (fun fuel => .onSockBus (play_udpReceived u fuel buf)) h1, h2, h3⟩

/-! ## MACRAW -/

theorem rawRough_isRun {r : RawDevice} {c0 c : Chip} {sent : List (List U8)} {got : List RawGot} (ho : RawOpened sched0 faults0 r c0)
    (hr : RawRough sched faults r c0 sent got c) : ∃ log, RawRun sched faults r c0 log got c := by
  obtain ⟨hk, A, h2, _⟩ := raw_inv ho (RawRun.start (sched := sched0) (faults := faults0))
  exact (rawRough_run hk (K := (c0.socks 0).packets) (A := A) ⟨[], [], rfl, nofun, ⟨.nil, nofun⟩, by
    rw [List.append_nil, show encFrames [] = [] from rfl, List.append_nil]; exact h2⟩ hr).2

/-- C134, `write_frame`: the call returns `Ok`; the frames that left since the device was opened are those of the calls that returned `Ok` before, and this. -/
theorem C134_raw_write {r : RawDevice} {c0 c : Chip} {sent : List (List U8)} {got : List RawGot} (ho : RawOpened sched0 faults0 r c0)
    (hr : RawRough sched faults r c0 sent got c) (frame : List U8)
    (hf : NoFaultsFrom faults c) (hl : LosslessFrom sched 0 c) (he : Emitting sched 0) (hc : Confirming sched 0)
    (hne : frame ≠ []) (hz : frame.length ≤ 16384) :
    ∃ c', Succeeds (fun fuel => r.writeFrame (Chip.dev sched faults).bus fuel frame) c frame.length c' ∧
      ∃ ps, (c'.socks 0).packets = (c0.socks 0).packets ++ ps ∧ ps.map Packet.data = sent ++ [frame] ∧ ∀ p ∈ ps, p.delivered = true := by
  let p : Plan E := ⟨sched, faults⟩
  obtain ⟨log, run⟩ := rawRough_isRun ho hr
  obtain ⟨⟨ps, g1, g2, g3⟩, _⟩ := C131_raw ho hr
  obtain ⟨c', h1, ip, port, h2⟩ := C76_raw_write (sched := (p.since c).sched) (faults := (p.since c).faults) hf.since he.since hc.since hl.since ho run.past
    frame hne hz
  refine ⟨c', succeedsBus_since p (m := fun fuel _ B => r.writeFrame B fuel frame) (fun fuel => play_rawWrite r fuel frame) h1,
    ps ++ [⟨ip, port, frame, true⟩], by rw [h2, g1, List.append_assoc], by rw [List.map_append, g2]; rfl, fun q hq => ?_⟩
  rcases List.mem_append.mp hq with h | h
  · exact g3 q h
  · rw [List.mem_singleton.mp h]

/-- C134, `read_frame`: if a frame is queued, the call returns `Ok`, and brings it. -/
theorem C134_raw_read {r : RawDevice} {c0 c : Chip} {sent : List (List U8)} {got : List RawGot} (ho : RawOpened sched0 faults0 r c0)
    (hr : RawRough sched faults r c0 sent got c) (f : List U8) (rest : List (List U8)) (hq : (c.socks 0).Frames (f :: rest))
    (hf : NoFaultsFrom faults c) (buf : List U8) :
    ∃ k buf' c', Succeeds (fun fuel => r.readFrame (Chip.dev sched faults).bus fuel) (buf, c) k (buf', c') ∧ RawGot.Brings ⟨buf, k, buf'⟩ f := by
  let p : Plan E := ⟨sched, faults⟩
  obtain ⟨log, run⟩ := rawRough_isRun ho hr
  obtain ⟨k, buf', c', ⟨hne, N, hN⟩, h2⟩ := C76_raw_read (sched := (p.since c).sched) (faults := (p.since c).faults) hf.since ho run.past _ hq buf
  exact ⟨k, buf', c', ⟨hne, N, fun fuel h => (play1_since p (play_rawRead r fuel buf)).trans (hN fuel h)⟩, (h2 f rest rfl).1⟩

/-! Cases: a call failed in the last transfer allowed, and was made again; then the next. -/

example : ∃ d' : Device Chip Unit,
    Succeeds (fun fuel => sendWhole (Device.tcpSend (Chip.dev drainSched (faultAt 15)).bus fuel ⟨Socket.new (BitVec.ofNat 8 0)⟩) fuel [5, 6]) sentAgain () d' ∧
      (d'.bus.socks 0).stream ++ (d'.bus.socks 0).pending = [7, 8, 9, 5, 6] := by
  obtain ⟨d', h1, h2⟩ := C134_tcp_send (n := 0) (by decide) 100 demoRemote demoDevice drainConnected sentAgain powerUp_sizes drain_connect [7, 8, 9] []
    (.send 9 [7, 8, 9] 3 (.failedSend 9 [7, 8, 9] _ (.start (sched := drainSched) (faults := faultAt 15)) half_sent nofun (by decide +kernel)) sent_again)
    [5, 6] (faultAt_past (by decide +kernel)) (fun k x _ h => drain_status k x h) (by decide +kernel) drain_confirming drain_draining
  rw [show (drainConnected.bus.socks 0).stream = [] by decide +kernel] at h2
  exact ⟨d', h1, h2⟩

example := C134_tcp_receive (n := 0) (by decide) 100 demoRemote demoDevice demoConnected receivedAgain.2 powerUp_sizes demo_connect [] _
  (.receive 9 [0, 0] _ 2 (.failedReceive 9 [9, 9] _ _ (.other (.start (sched := demoSched) (faults := faultAt 18)) demo_arrives) half_received nofun
    (by decide +kernel)) received_again)
  (faultAt_past (by decide +kernel)) (fun k x _ h => demo_status k x h) (by decide +kernel) [0, 0]

example : ∃ d' : Device Chip Unit, Succeeds (fun fuel => Device.udpSend (Chip.dev emitSched (faultAt 13)).bus fuel (udpConnected noFaults).1 [5, 6])
    udpAgain () d' ∧ ∃ ps, (d'.bus.socks 0).packets = ps ++ [⟨[10, 0, 0, 1], [0, 53], [5, 6], true⟩] := by
  obtain ⟨d', h1, ps, _, h3⟩ := C134_udp_send (n := 0) (by decide) demo_opened (.send 9 [7, 8, 9] addrA (.failedSend 9 [7, 8, 9] _
    (.start (sched := emitSched) (faults := faultAt 13)) half_udp nofun (by decide +kernel)) udp_again (by decide +kernel)) addrA (by decide +kernel) [5, 6]
    (faultAt_past (by decide +kernel)) (fun k x _ h => emit_status (p := (· = 0x22)) k x h) (fun k _ => emit_lossless k) emit_emitting
    (by decide +kernel) (by unfold Sock.NoTimeout; decide +kernel)
  exact ⟨d', h1, _, h3.trans (congrArg _ (by decide +kernel))⟩

example := C134_udp_receive (n := 0) (by decide) arrive_opened (.failedReceive 9 [9, 9] _ _ (.other
  (.start (sched := arriveSched [dgramA, dgramB]) (faults := faultAt 14)) arrive_arrives) half_dgram nofun (by decide +kernel)) dgramA [dgramB]
  ⟨by simp [Dgram.Wf, dgramA, dgramB], by decide +kernel⟩ (by decide +kernel) (faultAt_past (by decide +kernel))
  (fun k x _ h => by unfold arriveSched at h; split at h <;> simp at h) (by decide +kernel) [0, 0, 0, 0] nofun (by decide)

example : ∃ c', Succeeds (fun fuel => rawDemo.writeFrame (Chip.dev frameSched (faultAt 20)).bus fuel [5]) writtenAgain 1 c' ∧
    (c'.socks 0).packets.map Packet.data = [[7, 8], [5]] := by
  obtain ⟨c', h1, ps, h2, h3, _⟩ := C134_raw_write rawDemo_opened (.writeFrame 9 [7, 8] 2 (.failedWrite 9 [7, 8] _
    (.start (sched := frameSched) (faults := faultAt 20)) half_written nofun (by decide +kernel)) written_again) [5] (faultAt_past (by decide +kernel))
    (frame_lossless _) frame_emitting frame_confirming (by simp) (by simp)
  refine ⟨c', h1, ?_⟩
  rw [h2, show ((rawChip noFaults).socks 0).packets = [] by decide +kernel]
  exact h3

example := C134_raw_read rawDemo_opened (.readFrame 9 [0, 0, 0, 0] _ 4 (.failedRead 9 [9, 9] _ _ (.other (.start (sched := frameSched) (faults := faultAt 22))
  frame_arrives) half_frame nofun (by decide +kernel)) frame_again) [5, 6] [] ⟨by simp, by decide +kernel⟩ (faultAt_past (by decide +kernel)) [0, 0]

end W5500.Props
