import Verif.Props.Recover
import Verif.Proofs.StrategyDev
import Verif.Proofs.Early
import Verif.Props.Cases2
/-! # C130: making a failed call again

A transfer fails in the midst of a call, before the call has moved the pointer register it works on. From then on no transfer fails, and the
socket stays open. Then the same call returns `Ok`, without opening the socket again, and does what it would have done the first time. -/

namespace W5500.Props
open W5500.Spec Sock
variable {E H S ε α : Type} {sched : Nat → List (Nat × Act)} {faults : Nat → Option (E × Nat)}
  {sched0 : Nat → List (Nat × Act)} {faults0 : Nat → Option (E × Nat)}

/-! ## What happened before does not matter -/

theorem since_between (p : Plan E) (c c' : Chip) : (p.since c).AgreeBetween p c c' :=
  ⟨fun _ h _ => if_pos h, fun _ h _ => if_pos h⟩

/-- A call that succeeds if nothing had happened before succeeds. -/
theorem succeeds_since (p : Plan E) {m : Nat → (W : Type) → Bus W E → M (Device W H) ε α} (hm : ∀ fuel, PlayDev (m fuel)) {d d' : Device Chip H}
    {x : α} (h : Succeeds (fun fuel => m fuel Chip (p.since d.bus).bus) d x d') : Succeeds (fun fuel => m fuel Chip p.bus) d x d' := by
  obtain ⟨h1, N, h2⟩ := h
  refine ⟨h1, N, fun fuel hN => ?_⟩
  have e := plays_until (hm fuel d.state) (c := d.bus) (since_between p d.bus _)
  rw [← h2 fuel hN]
  dsimp only at e ⊢
  change aparts (m fuel Chip p.bus d) = aparts (m fuel Chip (p.since d.bus).bus d) at e
  generalize m fuel Chip p.bus d = r at e
  generalize m fuel Chip (p.since d.bus).bus d = r' at e
  obtain ⟨r, c, st⟩ := r
  obtain ⟨r', c', st'⟩ := r'
  cases e
  rfl

theorem succeedsWith_since (p : Plan E) {s s' : S} {m : Nat → (W : Type) → Bus W E → M (S × Device W H) ε α} (hm : ∀ fuel, PlayWith s (m fuel))
    {d d' : Device Chip H} {x : α} (h : Succeeds (fun fuel => m fuel Chip (p.since d.bus).bus) (s, d) x (s', d')) :
    Succeeds (fun fuel => m fuel Chip p.bus) (s, d) x (s', d') := by
  obtain ⟨h1, N, h2⟩ := h
  refine ⟨h1, N, fun fuel hN => ?_⟩
  have e := plays_until (hm fuel d.state) (c := d.bus) (since_between p d.bus _)
  rw [← h2 fuel hN]
  dsimp only at e ⊢
  change apartsWith (m fuel Chip p.bus (s, d)) = apartsWith (m fuel Chip (p.since d.bus).bus (s, d)) at e
  generalize m fuel Chip p.bus (s, d) = r at e
  generalize m fuel Chip (p.since d.bus).bus (s, d) = r' at e
  obtain ⟨r, s1, c, st⟩ := r
  obtain ⟨r', s2, c', st'⟩ := r'
  cases e
  rfl

/-! ## TCP -/

/-- C130, TCP `send`: a call failed that was to send `data`, and left the TX write pointer alone. From then on no transfer fails, the connection stays,
sends are confirmed, and the network takes data. Then a client that sends the data again (in as many calls as it takes) is successful, and the peer
gets the data once. -/
theorem C130_tcp_send {n : Nat} (hn : n < 8) (fuel fuel' : Nat) (remote : SockAddr) (d0 d1 d d' : Device Chip H)
    (hz : SizesOk (d0.bus.socks n).mem)
    (hconn : Device.tcpConnect (Chip.dev sched0 faults0).bus fuel ⟨Socket.new (BitVec.ofNat 8 n)⟩ remote d0 = (.ok (), d1))
    (acc del : List U8) (hrun : TcpRun sched faults n d1.bus acc del d.bus) (data : List U8) (e : TcpSocketError E)
    (hfail : Device.tcpSend (Chip.dev sched faults).bus fuel' ⟨Socket.new (BitVec.ofNat 8 n)⟩ data d = (.err e, d'))
    (hptr : (d'.bus.socks n).txWr = (d.bus.socks n).txWr)
    (hf : NoFaultsFrom faults d'.bus) (hs : StatusFrom sched n (· = 0x17) d'.bus) (hsr : (d'.bus.socks n).sr = 0x17)
    (hc : Confirming sched n) (hd : Draining sched n) :
    ∃ d'' : Device Chip H,
      Succeeds (fun fuel => sendWhole (Device.tcpSend (Chip.dev sched faults).bus fuel ⟨Socket.new (BitVec.ofNat 8 n)⟩) fuel data) d' () d'' ∧
      (d''.bus.socks n).stream ++ (d''.bus.socks n).pending = (d.bus.socks n).stream ++ (d.bus.socks n).pending ++ data := by
  let p : Plan E := ⟨sched, faults⟩
  have hrun' := TcpRun.failedSend fuel' data (.err e) hrun hfail nofun hptr
  obtain ⟨_, _, ⟨S, A, hfr⟩, _⟩ := tcpConnect_idle hn hz hconn
  have i1 := tcpRun_idle hn hrun hfr.1
  have i2 := tcpRun_idle hn hrun' hfr.1
  obtain ⟨d'', ⟨hne, N, hN⟩, h2, _, _⟩ := C95 (sched := (p.since d'.bus).sched) (faults := (p.since d'.bus).faults) hn hf.since hs.since hc.since
    hd.since fuel remote d0 d1 d' hz hconn acc del hrun'.past hsr data
  refine ⟨d'', ⟨hne, N, fun fuel h => ?_⟩, by rw [h2, i1.tx.out, i2.tx.out]⟩
  exact (from_dev (rel_sendWhole (fun x => Rel.onBus (rel_tcpSend (p.since_respects d'.bus) Cut.eq (t := ⟨Socket.new (BitVec.ofNat 8 n)⟩)
    trivial trivial fuel (rfl : x = x))) fuel data) (d := d') (Nat.le_refl _) (Nat.le_refl _)).1.trans (hN fuel h)

/-- C130, TCP `receive`: a call failed, and left the RX read pointer alone. From then on no transfer fails, and the connection stays. Then a further call
(with any buffer) returns `Ok`, and the bytes it brings are those the failed call should have begun with: no byte is skipped, none comes twice. If
RECV is announced still, then as many come as wait, or the buffer holds. -/
theorem C130_tcp_receive {n : Nat} (hn : n < 8) (fuel fuel' : Nat) (remote : SockAddr) (d0 d1 d d' : Device Chip H)
    (hz : SizesOk (d0.bus.socks n).mem)
    (hconn : Device.tcpConnect (Chip.dev sched0 faults0).bus fuel ⟨Socket.new (BitVec.ofNat 8 n)⟩ remote d0 = (.ok (), d1))
    (acc del : List U8) (hrun : TcpRun sched faults n d1.bus acc del d.bus) (buf1 buf2 : List U8) (e : TcpSocketError E)
    (hfail : Device.tcpReceive (Chip.dev sched faults).bus fuel' ⟨Socket.new (BitVec.ofNat 8 n)⟩ (buf1, d) = (.err e, (buf2, d')))
    (hptr : (d'.bus.socks n).rxRdReg = (d.bus.socks n).rxRdReg)
    (hf : NoFaultsFrom faults d'.bus) (hs : StatusFrom sched n (· = 0x17) d'.bus) (hsr : (d'.bus.socks n).sr = 0x17) (buf : List U8) :
    ∃ (k : Nat) (buf' : List U8) (d'' : Device Chip H),
      Succeeds (fun fuel => Device.tcpReceive (Chip.dev sched faults).bus fuel ⟨Socket.new (BitVec.ofNat 8 n)⟩) (buf, d') k (buf', d'') ∧
      ((d'.bus.socks n).ir &&& 4 ≠ 0 → min buf.length (d'.bus.socks n).queue.length ≤ k) ∧
      k ≤ buf.length ∧ buf'.length = buf.length ∧
      ∃ before, (d.bus.socks n).arrived = before ++ (d.bus.socks n).queue ∧
        (d''.bus.socks n).arrived = before ++ buf'.take k ++ (d''.bus.socks n).queue := by
  let p : Plan E := ⟨sched, faults⟩
  have hrun' := TcpRun.failedReceive fuel' buf1 buf2 (.err e) hrun hfail nofun hptr
  obtain ⟨_, _, ⟨S, A, hfr⟩, _⟩ := tcpConnect_idle hn hz hconn
  have i1 := tcpRun_idle hn hrun hfr.1
  have i2 := tcpRun_idle hn hrun' hfr.1
  obtain ⟨k, buf', d'', h1, h2, h3, h4, ⟨before, h5, h6⟩, _⟩ := C76_tcp_receive (sched := (p.since d'.bus).sched) (faults := (p.since d'.bus).faults) hn
    hf.since hs.since fuel remote d0 d1 d' hz hconn acc del hrun'.past hsr buf
  have e1 : before = A ++ del := List.append_cancel_right (h5.symm.trans i2.rx.core.arrived)
  subst e1
  exact ⟨k, buf', d'', succeedsWith_since p (m := fun fuel _ B => Device.tcpReceive B fuel ⟨Socket.new (BitVec.ofNat 8 n)⟩)
    (fun fuel => .onSockBus (play_tcpReceive _ fuel buf)) h1, h2, h3, h4, _, i1.rx.core.arrived, h6⟩

/-! ## UDP -/

/-- C130, UDP `send`: a call failed, and left nothing waiting in the TX buffer. From then on no transfer fails, the socket stays open, and packets leave and
are not dropped. Then the same call returns `Ok`, and all of the data has left for the address. -/
theorem C130_udp_send {n : Nat} (hn : n < 8) {u0 u : UdpSocket} {c0 : Chip} {log : List UdpSent} {got : List UdpGot} {d d' : Device Chip H}
    (ho : UdpOpened sched0 faults0 n u0 c0) (hr : UdpRun sched faults n u0 c0 log got u d.bus) (fuel' : Nat) (dst : SockAddr4)
    (hdst : u.destination = some dst) (data : List U8) (e : NbError (UdpSocketError E))
    (hfail : Device.udpSend (Chip.dev sched faults).bus fuel' u data d = (.err e, d')) (hptr : Drained n d'.bus)
    (hf : NoFaultsFrom faults d'.bus) (hs : StatusFrom sched n (· = 0x22) d'.bus) (hl : LosslessFrom sched n d'.bus) (he : Emitting sched n)
    (hsr : (d'.bus.socks n).sr = 0x22) (hq : (d'.bus.socks n).NoTimeout) :
    ∃ d'' : Device Chip H, Succeeds (fun fuel => Device.udpSend (Chip.dev sched faults).bus fuel u data) d' () d'' ∧
      (d''.bus.socks n).packets = (d'.bus.socks n).packets ++
        (pieces (d'.bus.socks n).txSize data).map (fun p => ⟨(wire dst).1, (wire dst).2, p, true⟩) := by
  let p : Plan E := ⟨sched, faults⟩
  have hr' := UdpRun.failedSend fuel' data dst (.err e) hr hfail hdst nofun hptr
  obtain ⟨d'', h1, h2, _⟩ := C76_udp_send (sched := (p.since d'.bus).sched) (faults := (p.since d'.bus).faults) hn hf.since hs.since he.since hl.since
    ho hr'.past hsr hq dst hdst data
  exact ⟨d'', succeeds_since p (m := fun fuel _ B => Device.udpSend B fuel u data) (fun fuel => .onBus (play_udpSend u fuel data)) h1, h2⟩

/-- C130, UDP `receive`: a datagram was queued, and a call failed that left the RX read pointer alone, and RECV announced. From then on no transfer fails, and
the socket stays open. Then a further call with a buffer that has room for the datagram returns `Ok`, and brings this datagram and where it came from. -/
theorem C130_udp_receive {n : Nat} (hn : n < 8) {u0 u : UdpSocket} {c0 : Chip} {log : List UdpSent} {got : List UdpGot} {d d' : Device Chip H}
    (ho : UdpOpened sched0 faults0 n u0 c0) (hr : UdpRun sched faults n u0 c0 log got u d.bus) (dg : Dgram) (rest : List Dgram)
    (hq : (d.bus.socks n).Queued (dg :: rest)) (fuel' : Nat) (buf1 buf2 : List U8) (e : NbError (UdpSocketError E))
    (hfail : Device.udpReceive (Chip.dev sched faults).bus fuel' u (buf1, d) = (.err e, (buf2, d')))
    (hptr : (d'.bus.socks n).rxRdReg = (d.bus.socks n).rxRdReg) (hir : (d'.bus.socks n).ir &&& 4 ≠ 0)
    (hf : NoFaultsFrom faults d'.bus) (hs : StatusFrom sched n (· = 0x22) d'.bus) (hsr : (d'.bus.socks n).sr = 0x22)
    (buf : List U8) (hb : buf ≠ []) (hlen : dg.payload.length ≤ buf.length) :
    ∃ (k : Nat) (a : SockAddr4) (buf' : List U8) (d'' : Device Chip H),
      Succeeds (fun fuel => Device.udpReceive (Chip.dev sched faults).bus fuel u) (buf, d') (k, .v4 a) (buf', d'') ∧
      wire a = (dg.ip, dg.port) ∧ buf'.take dg.payload.length = dg.payload := by
  let p : Plan E := ⟨sched, faults⟩
  have hr' := UdpRun.failedReceive fuel' buf1 buf2 (.err e) hr hfail nofun hptr
  obtain ⟨A, h0⟩ := opened_inv hn ho
  obtain ⟨hsk, hc, sent, ds, _, _, hi⟩ := udpRun_inv hn h0 hr
  have hi' : UdpIdle ((c0.socks n).packets ++ sent) (A ++ encAll ds) (c0.socks n).txSize (dg :: rest) (d.bus.socks n) :=
    ⟨hi.idle, hi.size, [], by rw [List.append_nil]; exact hq⟩
  have key := (udp_receiveFrom (sched := sched) (faults := faults) hn u hsk ((c0.socks n).packets ++ sent) (A ++ encAll ds) (c0.socks n).txSize
    (dg :: rest) (d.bus.socks n).rxRdReg fuel' buf1).run (buf1, d.bus) ⟨rfl, hi', rfl⟩
  unfold Device.udpReceive at hfail
  rw [onSockBus_run hfail] at key
  obtain ⟨more, hq'⟩ := (key hptr).queue
  obtain ⟨k, a, buf', d'', h1, h2, h3, _⟩ := C76_udp_receive (sched := (p.since d'.bus).sched) (faults := (p.since d'.bus).faults) hn hf.since hs.since
    ho hr'.past hsr dg (rest ++ more) hq' hir buf hb hlen
  exact ⟨k, a, buf', d'', succeedsWith_since p (m := fun fuel _ B => Device.udpReceive B fuel u)
    (fun fuel => .onSockBus (play_udpReceived u fuel buf)) h1, h2, h3⟩

/-! ## MACRAW -/

theorem succeedsBus_since (p : Plan E) {m : Nat → (W : Type) → Bus W E → M W ε α} (hm : ∀ fuel, Play0 (m fuel)) {c c' : Chip}
    {x : α} (h : Succeeds (fun fuel => m fuel Chip (p.since c).bus) c x c') : Succeeds (fun fuel => m fuel Chip p.bus) c x c' := by
  obtain ⟨h1, N, h2⟩ := h
  exact ⟨h1, N, fun fuel hN => (plays_until (hm fuel) (c := c) (since_between p c _)).trans (h2 fuel hN)⟩

theorem play1_since (p : Plan E) {s : S} {m : (W : Type) → Bus W E → M (S × W) ε α} (hm : Play1 s m) {c : Chip} :
    m Chip p.bus (s, c) = m Chip (p.since c).bus (s, c) := by
  have e := plays_until hm (c := c) (since_between p c _)
  generalize m Chip p.bus (s, c) = r at e
  generalize m Chip (p.since c).bus (s, c) = r' at e
  obtain ⟨r, s1, c1⟩ := r
  obtain ⟨r', s2, c2⟩ := r'
  cases e
  rfl

/-- C130, `write_frame`: a call failed, and left nothing waiting, neither data nor SENDOK. From then on no transfer fails, and the chip sends what it is told
to send. Then the call with the frame returns `Ok`, and the frame has left. -/
theorem C130_raw_write {r : RawDevice} {c0 c c' : Chip} {log : List RawSent} {got : List RawGot} (ho : RawOpened sched0 faults0 r c0)
    (hr : RawRun sched faults r c0 log got c) (fuel' : Nat) (frame : List U8) (e : E)
    (hfail : r.writeFrame (Chip.dev sched faults).bus fuel' frame c = (.err e, c')) (hptr : Quiet 0 c')
    (hf : NoFaultsFrom faults c') (hl : LosslessFrom sched 0 c') (he : Emitting sched 0) (hc : Confirming sched 0)
    (hne : frame ≠ []) (hz : frame.length ≤ 16384) :
    ∃ c'', Succeeds (fun fuel => r.writeFrame (Chip.dev sched faults).bus fuel frame) c' frame.length c'' ∧
      ∃ ip port, (c''.socks 0).packets = (c'.socks 0).packets ++ [⟨ip, port, frame, true⟩] := by
  let p : Plan E := ⟨sched, faults⟩
  have hr' := RawRun.failedWrite fuel' frame (.err e) hr hfail nofun hptr
  obtain ⟨c'', h1, h2⟩ := C76_raw_write (sched := (p.since c').sched) (faults := (p.since c').faults) hf.since he.since hc.since hl.since ho hr'.past
    frame hne hz
  exact ⟨c'', succeedsBus_since p (m := fun fuel _ B => r.writeFrame B fuel frame) (fun fuel => play_rawWrite r fuel frame) h1, h2⟩

/-- C130, `read_frame`: a frame was queued, and a call failed that left the RX read pointer alone. If from then on no transfer fails, then a further call returns
`Ok`, and brings this frame. -/
theorem C130_raw_read {r : RawDevice} {c0 c c' : Chip} {log : List RawSent} {got : List RawGot} (ho : RawOpened sched0 faults0 r c0)
    (hr : RawRun sched faults r c0 log got c) (f : List U8) (rest : List (List U8)) (hq : (c.socks 0).Frames (f :: rest)) (fuel' : Nat)
    (buf1 buf2 : List U8) (e : E) (hfail : r.readFrame (Chip.dev sched faults).bus fuel' (buf1, c) = (.err e, (buf2, c')))
    (hptr : (c'.socks 0).rxRdReg = (c.socks 0).rxRdReg) (hf : NoFaultsFrom faults c') (buf : List U8) :
    ∃ k buf' c'', Succeeds (fun fuel => r.readFrame (Chip.dev sched faults).bus fuel) (buf, c') k (buf', c'') ∧ RawGot.Brings ⟨buf, k, buf'⟩ f := by
  let p : Plan E := ⟨sched, faults⟩
  have hr' := RawRun.failedRead fuel' buf1 buf2 (.err e) hr hfail nofun hptr
  obtain ⟨g1, A, g2, ps, fs, g3, g4, g5⟩ := raw_inv ho hr
  have hi : RawIdle ((c0.socks 0).packets ++ ps) (A ++ encFrames fs) 16384 (f :: rest) (c.socks 0) :=
    ⟨⟨g5.busy.base, g5.busy.wr, g5.busy.size, g5.busy.owed, g5.busy.core, ⟨[], by rw [List.append_nil]; exact hq⟩, g5.busy.rd⟩, g5.reg⟩
  have key := (raw_readFrame (sched := sched) (faults := faults) (n := 0) (by decide) r (by rw [g1]) ((c0.socks 0).packets ++ ps) (A ++ encFrames fs)
    16384 (f :: rest) (c.socks 0).rxRdReg fuel' buf1).run (buf1, c) ⟨rfl, hi, rfl⟩
  rw [hfail] at key
  obtain ⟨more, hq'⟩ := (key hptr).busy.queue
  obtain ⟨k, buf', c'', ⟨hne, N, hN⟩, h2⟩ := C76_raw_read (sched := (p.since c').sched) (faults := (p.since c').faults) hf.since ho hr'.past _ hq' buf
  exact ⟨k, buf', c'', ⟨hne, N, fun fuel h => (play1_since p (play_rawRead r fuel buf)).trans (hN fuel h)⟩, (h2 f (rest ++ more) rfl).1⟩

/-! ## Early failures

That a call left the pointers alone need not be known: it does if it failed in one of its first transfers. A client that counts the transfers can
know this. -/

/-- C130, TCP `send`, early: a call failed in one of its first four transfers. -/
theorem C130_tcp_send_early {n : Nat} (hn : n < 8) (fuel fuel' : Nat) (remote : SockAddr) (d0 d1 d d' : Device Chip H)
    (hz : SizesOk (d0.bus.socks n).mem)
    (hconn : Device.tcpConnect (Chip.dev sched0 faults0).bus fuel ⟨Socket.new (BitVec.ofNat 8 n)⟩ remote d0 = (.ok (), d1))
    (acc del : List U8) (hrun : TcpRun sched faults n d1.bus acc del d.bus) (data : List U8) (e : TcpSocketError E)
    (hfail : Device.tcpSend (Chip.dev sched faults).bus fuel' ⟨Socket.new (BitVec.ofNat 8 n)⟩ data d = (.err e, d'))
    (hearly : d'.bus.txn ≤ d.bus.txn + 4)
    (hf : NoFaultsFrom faults d'.bus) (hs : StatusFrom sched n (· = 0x17) d'.bus) (hsr : (d'.bus.socks n).sr = 0x17)
    (hc : Confirming sched n) (hd : Draining sched n) :
    ∃ d'' : Device Chip H,
      Succeeds (fun fuel => sendWhole (Device.tcpSend (Chip.dev sched faults).bus fuel ⟨Socket.new (BitVec.ofNat 8 n)⟩) fuel data) d' () d'' ∧
      (d''.bus.socks n).stream ++ (d''.bus.socks n).pending = (d.bus.socks n).stream ++ (d.bus.socks n).pending ++ data := by
  refine C130_tcp_send hn fuel fuel' remote d0 d1 d d' hz hconn acc del hrun data e hfail ?_ hf hs hsr hc hd
  have key := (early_tcpSend (sched := sched) (faults := faults) (P := fun s => s.txWr = (d.bus.socks n).txWr) (k := d.bus.txn) hn
    (fun s a h => (act_txWr s a).trans h) (fun _ _ _ h => h) fuel' data).run d.bus ⟨rfl, Nat.le_refl _⟩
  unfold Device.tcpSend at hfail
  rw [onBus_run hfail] at key
  exact key.resolve_right (by omega)

/-- C130, TCP `receive`, early: a call failed in one of its first six transfers. -/
theorem C130_tcp_receive_early {n : Nat} (hn : n < 8) (fuel fuel' : Nat) (remote : SockAddr) (d0 d1 d d' : Device Chip H)
    (hz : SizesOk (d0.bus.socks n).mem)
    (hconn : Device.tcpConnect (Chip.dev sched0 faults0).bus fuel ⟨Socket.new (BitVec.ofNat 8 n)⟩ remote d0 = (.ok (), d1))
    (acc del : List U8) (hrun : TcpRun sched faults n d1.bus acc del d.bus) (buf1 buf2 : List U8) (e : TcpSocketError E)
    (hfail : Device.tcpReceive (Chip.dev sched faults).bus fuel' ⟨Socket.new (BitVec.ofNat 8 n)⟩ (buf1, d) = (.err e, (buf2, d')))
    (hearly : d'.bus.txn ≤ d.bus.txn + 6)
    (hf : NoFaultsFrom faults d'.bus) (hs : StatusFrom sched n (· = 0x17) d'.bus) (hsr : (d'.bus.socks n).sr = 0x17) (buf : List U8) :
    ∃ (k : Nat) (buf' : List U8) (d'' : Device Chip H),
      Succeeds (fun fuel => Device.tcpReceive (Chip.dev sched faults).bus fuel ⟨Socket.new (BitVec.ofNat 8 n)⟩) (buf, d') k (buf', d'') ∧
      ((d.bus.socks n).ir &&& 4 ≠ 0 → min buf.length (d'.bus.socks n).queue.length ≤ k) ∧
      k ≤ buf.length ∧ buf'.length = buf.length ∧
      ∃ before, (d.bus.socks n).arrived = before ++ (d.bus.socks n).queue ∧
        (d''.bus.socks n).arrived = before ++ buf'.take k ++ (d''.bus.socks n).queue := by
  have key := (early_tcpReceive (sched := sched) (faults := faults) (n := n) (k := d.bus.txn)
    (P := fun s => s.rxRdReg = (d.bus.socks n).rxRdReg ∧ ((d.bus.socks n).ir &&& 4 ≠ 0 → s.ir &&& 4 ≠ 0))
    (fun s a h => ⟨(act_rxRdReg s a).trans h.1, fun hi => stable_recvPending s a (h.2 hi)⟩) ⟨Socket.new (BitVec.ofNat 8 n)⟩ fuel').run (buf1, d.bus)
    ⟨⟨rfl, id⟩, Nat.le_refl _⟩
  have hfail' := hfail
  unfold Device.tcpReceive at hfail'
  rw [onSockBus_run hfail'] at key
  obtain ⟨h1, h2⟩ := key.resolve_right (by dsimp only; omega)
  obtain ⟨k, buf', d'', g1, g2, g3⟩ := C130_tcp_receive hn fuel fuel' remote d0 d1 d d' hz hconn acc del hrun buf1 buf2 e hfail h1 hf hs hsr buf
  exact ⟨k, buf', d'', g1, fun hi => g2 (h2 hi), g3⟩

/-- C130, UDP `send`, early: a call failed in one of its first six transfers. Then nothing of the data has left, so that it leaves once if the call is made
again. -/
theorem C130_udp_send_early {n : Nat} (hn : n < 8) {u0 u : UdpSocket} {c0 : Chip} {log : List UdpSent} {got : List UdpGot} {d d' : Device Chip H}
    (ho : UdpOpened sched0 faults0 n u0 c0) (hr : UdpRun sched faults n u0 c0 log got u d.bus) (fuel' : Nat) (dst : SockAddr4)
    (hdst : u.destination = some dst) (data : List U8) (e : NbError (UdpSocketError E))
    (hfail : Device.udpSend (Chip.dev sched faults).bus fuel' u data d = (.err e, d')) (hearly : d'.bus.txn ≤ d.bus.txn + 6)
    (hf : NoFaultsFrom faults d'.bus) (hs : StatusFrom sched n (· = 0x22) d'.bus) (hl : LosslessFrom sched n d'.bus) (he : Emitting sched n)
    (hsr : (d'.bus.socks n).sr = 0x22) (hq : (d'.bus.socks n).NoTimeout) :
    ∃ d'' : Device Chip H, Succeeds (fun fuel => Device.udpSend (Chip.dev sched faults).bus fuel u data) d' () d'' ∧
      (d''.bus.socks n).packets = (d.bus.socks n).packets ++
        (pieces (d.bus.socks n).txSize data).map (fun p => ⟨(wire dst).1, (wire dst).2, p, true⟩) := by
  obtain ⟨A, h0⟩ := opened_inv hn ho
  obtain ⟨hsk, hc, sent, ds, _, _, hi⟩ := udpRun_inv hn h0 hr
  have key := (early_udpSend (sched := sched) (faults := faults) (n := n) (k := d.bus.txn)
    (P := fun s => PktIdle 2 (d.bus.socks n).dest ((c0.socks n).packets ++ sent) (A ++ encAll ds) s ∧ s.txSize = (d.bus.socks n).txSize) hn
    (fun s a h => ⟨stable_pktIdle (by decide) _ _ _ s a h.1, (act_txSize s a).trans h.2⟩)
    (fun s p x h => ⟨⟨⟨h.1.base.mode, h.1.base.size, h.1.base.dst, h.1.base.rd, h.1.base.una, h.1.base.out⟩, h.1.wr, ⟨⟨h.1.rx.core.size, h.1.rx.core.fits,
      h.1.rx.core.arrived⟩, h.1.rx.reg⟩⟩, h.2⟩) u hsk fuel' data).run d.bus ⟨⟨hi.idle, rfl⟩, Nat.le_refl _⟩
  have hfail' := hfail
  unfold Device.udpSend at hfail'
  rw [onBus_run hfail'] at key
  obtain ⟨h1, h2⟩ := key.resolve_right (by omega)
  have e1 : (d'.bus.socks n).packets = (d.bus.socks n).packets := h1.base.out.trans hi.idle.base.out.symm
  obtain ⟨d'', g1, g2⟩ := C130_udp_send hn ho hr fuel' dst hdst data e hfail (h1.base.rd.trans h1.wr.symm) hf hs hl he hsr hq
  exact ⟨d'', g1, by rw [g2, e1, show (d'.bus.socks n).txSize = _ from h2]⟩

/-- C130, UDP `receive`, early: a datagram was queued and announced, and a call failed in one of its first seven transfers. -/
theorem C130_udp_receive_early {n : Nat} (hn : n < 8) {u0 u : UdpSocket} {c0 : Chip} {log : List UdpSent} {got : List UdpGot} {d d' : Device Chip H}
    (ho : UdpOpened sched0 faults0 n u0 c0) (hr : UdpRun sched faults n u0 c0 log got u d.bus) (dg : Dgram) (rest : List Dgram)
    (hq : (d.bus.socks n).Queued (dg :: rest)) (hir : (d.bus.socks n).ir &&& 4 ≠ 0) (fuel' : Nat) (buf1 buf2 : List U8)
    (e : NbError (UdpSocketError E)) (hfail : Device.udpReceive (Chip.dev sched faults).bus fuel' u (buf1, d) = (.err e, (buf2, d')))
    (hearly : d'.bus.txn ≤ d.bus.txn + 7)
    (hf : NoFaultsFrom faults d'.bus) (hs : StatusFrom sched n (· = 0x22) d'.bus) (hsr : (d'.bus.socks n).sr = 0x22)
    (buf : List U8) (hb : buf ≠ []) (hlen : dg.payload.length ≤ buf.length) :
    ∃ (k : Nat) (a : SockAddr4) (buf' : List U8) (d'' : Device Chip H),
      Succeeds (fun fuel => Device.udpReceive (Chip.dev sched faults).bus fuel u) (buf, d') (k, .v4 a) (buf', d'') ∧
      wire a = (dg.ip, dg.port) ∧ buf'.take dg.payload.length = dg.payload := by
  have key := (Hoare.bind (f := fun x : Nat × UdpHeader => pure (x.1, SockAddr.v4 x.2.origin))
    (early_udpReceive (sched := sched) (faults := faults) (n := n) (k := d.bus.txn)
    (P := fun s => s.rxRdReg = (d.bus.socks n).rxRdReg ∧ s.ir &&& 4 ≠ 0)
    (fun s a h => ⟨(act_rxRdReg s a).trans h.1, stable_recvPending s a h.2⟩) u fuel') fun _ => .pure (Q := fun _ _ => True) fun _ h => h).run (buf1, d.bus)
    ⟨⟨rfl, hir⟩, Nat.le_refl _⟩
  have hfail' := hfail
  unfold Device.udpReceive at hfail'
  replace hfail' := onSockBus_run hfail'
  rw [show (_ : M _ _ _) (buf1, d.bus) = _ from hfail'] at key
  obtain ⟨h1, h2⟩ := key.resolve_right (by dsimp only; omega)
  exact C130_udp_receive hn ho hr dg rest hq fuel' buf1 buf2 e hfail h1 h2 hf hs hsr buf hb hlen

/-- C130, `write_frame`, early: a call failed in one of its first four transfers. Then the frame has not left, so that it leaves once if the call is made
again. -/
theorem C130_raw_write_early {r : RawDevice} {c0 c c' : Chip} {log : List RawSent} {got : List RawGot} (ho : RawOpened sched0 faults0 r c0)
    (hr : RawRun sched faults r c0 log got c) (fuel' : Nat) (frame : List U8) (e : E)
    (hfail : r.writeFrame (Chip.dev sched faults).bus fuel' frame c = (.err e, c')) (hearly : c'.txn ≤ c.txn + 4)
    (hf : NoFaultsFrom faults c') (hl : LosslessFrom sched 0 c') (he : Emitting sched 0) (hc : Confirming sched 0)
    (hne : frame ≠ []) (hz : frame.length ≤ 16384) :
    ∃ c'', Succeeds (fun fuel => r.writeFrame (Chip.dev sched faults).bus fuel frame) c' frame.length c'' ∧
      ∃ ip port, (c''.socks 0).packets = (c.socks 0).packets ++ [⟨ip, port, frame, true⟩] := by
  obtain ⟨g1, A, g2, ps, fs, g3, g4, g5⟩ := raw_inv ho hr
  have key := (early_rawWrite (sched := sched) (faults := faults) (n := 0) (k := c.txn) (by decide) (stable_rawIdle _ _ _ _)
    (fun s p x h => ⟨⟨⟨h.busy.base.mode, h.busy.base.size, rfl, h.busy.base.rd, h.busy.base.una, h.busy.base.out⟩, h.busy.wr, h.busy.size, h.busy.owed,
      ⟨h.busy.core.size, h.busy.core.fits, h.busy.core.arrived⟩, h.busy.queue, rfl⟩, h.reg⟩) (fun _ i h => h.ir i) r (by rw [g1]) fuel' frame).run c
    ⟨g5, Nat.le_refl _⟩
  rw [hfail] at key
  have h1 := key.resolve_right (by omega)
  obtain ⟨c'', k1, ip, port, k2⟩ := C130_raw_write ho hr fuel' frame e hfail ⟨h1.busy.base.rd.trans h1.busy.wr.symm, h1.busy.owed⟩ hf hl he hc hne hz
  exact ⟨c'', k1, ip, port, by rw [k2, show (c'.socks 0).packets = (c.socks 0).packets from h1.busy.base.out.trans g5.busy.base.out.symm]⟩

/-- C130, `read_frame`, early: a frame was queued, and a call failed in one of its first four transfers. -/
theorem C130_raw_read_early {r : RawDevice} {c0 c c' : Chip} {log : List RawSent} {got : List RawGot} (ho : RawOpened sched0 faults0 r c0)
    (hr : RawRun sched faults r c0 log got c) (f : List U8) (rest : List (List U8)) (hq : (c.socks 0).Frames (f :: rest)) (fuel' : Nat)
    (buf1 buf2 : List U8) (e : E) (hfail : r.readFrame (Chip.dev sched faults).bus fuel' (buf1, c) = (.err e, (buf2, c')))
    (hearly : c'.txn ≤ c.txn + 4) (hf : NoFaultsFrom faults c') (buf : List U8) :
    ∃ k buf' c'', Succeeds (fun fuel => r.readFrame (Chip.dev sched faults).bus fuel) (buf, c') k (buf', c'') ∧ RawGot.Brings ⟨buf, k, buf'⟩ f := by
  have key := (early_rawRead (sched := sched) (faults := faults) (n := 0) (k := c.txn) (P := fun s => s.rxRdReg = (c.socks 0).rxRdReg)
    (fun s a h => (act_rxRdReg s a).trans h) r fuel').run (buf1, c) ⟨rfl, Nat.le_refl _⟩
  rw [hfail] at key
  exact C130_raw_read ho hr f rest hq fuel' buf1 buf2 e hfail (key.resolve_right (by dsimp only; omega)) hf buf

end W5500.Props
