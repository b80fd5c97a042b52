import Verif.Spec.Either
import Verif.Props.Through
import Verif.Props.Tally
/-! # C135: a call fails on the bus, or gets through

After any history in which calls failed early (C131), and whatever transfers fail from then on: the next call either returns the error of one of the transfers
it made, or gets through and does what it should do. There is no third way: a transfer that fails does not make a call return `Ok` with something left
out, nor return another error, nor wait for ever. -/

namespace W5500.Props
open W5500.Spec Sock
variable {E H S ε α : Type} {sched : Nat → List (Nat × Act)} {faults : Nat → Option (E × Nat)}
  {sched0 : Nat → List (Nat × Act)} {faults0 : Nat → Option (E × Nat)}

/-- Nothing happened before the state `c`, and no transfer fails. -/
def _root_.W5500.Spec.Plan.calm (p : Plan E) (c : Chip) : Plan E := ⟨(p.since c).sched, fun _ => none⟩

theorem failures_mem {i j : Nat} {e : E} (h : e ∈ failures faults i j) : ∃ l k, i ≤ l ∧ l < j ∧ faults l = some (e, k) := by
  unfold failures at h
  obtain ⟨l, h1, h2⟩ := List.mem_filterMap.mp h
  obtain ⟨h3, h4⟩ := List.mem_range'_1.mp h1
  rcases h5 : faults l with _ | ⟨e', k⟩
  · rw [h5] at h2; cases h2
  · rw [h5] at h2
    cases h2
    exact ⟨l, k, h3, by omega, h5⟩

theorem failures_none {i j : Nat} (h : failures faults i j = []) {l : Nat} (h1 : i ≤ l) (h2 : l < j) : faults l = none := by
  rcases h5 : faults l with _ | ⟨e, k⟩
  · rfl
  · have : e ∈ failures faults i j := List.mem_filterMap.mpr ⟨l, List.mem_range'_1.mpr ⟨h1, by omega⟩, by rw [h5]; rfl⟩
    rw [h] at this
    cases this

/-- A call that reports every transfer that fails either reports one, or does what it does if none fails. -/
theorem plays_either {X : Type} {F : (W : Type) → Bus W E → W → X × W} (hF : Plays F) {f : X → Option E}
    (hf : ∀ (w : TW Chip E) (p : Plan E), ∃ evs, (F _ (traced p.bus) w).2.log = w.log ++ evs ∧ evs.filterMap failure = (f (F _ (traced p.bus) w).1).toList)
    (p : Plan E) (c : Chip) :
    F _ p.bus c = F _ (p.calm c).bus c ∨
    ∃ e i k, f (F _ p.bus c).1 = some e ∧ c.txn ≤ i ∧ i < (F _ p.bus c).2.txn ∧ p.faults i = some (e, k) := by
  have h := chip_tally hF (f := fun x => (f x).toList) hf p c
  rcases e : f (F _ p.bus c).1 with _ | x
  · rw [e] at h
    exact .inl (plays_until hF (p := p) (q := p.calm c) ⟨fun _ h1 _ => (if_pos h1).symm, fun _ h1 h2 => failures_none h.symm h1 h2⟩).symm
  · rw [e] at h
    obtain ⟨l, k, h1, h2, h3⟩ := failures_mem (e := x) (by rw [← h]; exact List.mem_singleton_self _)
    exact .inr ⟨x, l, k, rfl, h1, h2, h3⟩

theorem unless_dev (p : Plan E) {m : Nat → (W : Type) → Bus W E → M (Device W H) ε α} {find : Res ε α → Option E} (hm : ∀ fuel, PlayDev (m fuel))
    (ht : ∀ fuel (p : Plan E), Tallies find (m fuel (TW Chip E) (traced p.bus))) {d d' : Device Chip H} {x : α}
    (h : Succeeds (fun fuel => m fuel Chip (p.calm d.bus).bus) d x d') :
    SucceedsUnless p.faults Device.bus find (fun fuel => m fuel Chip p.bus) d x d' := by
  obtain ⟨_, N, h2⟩ := h
  refine ⟨N, fun fuel hN => ?_⟩
  have e := plays_either (hm fuel d.state) (f := fun x => find x.1) (fun w p => ht fuel p ⟨w, d.state⟩) p d.bus
  rcases e with e | e
  · refine .inl ?_
    rw [← h2 fuel hN]
    dsimp only at e ⊢
    change aparts (m fuel Chip p.bus d) = aparts (m fuel Chip (p.calm d.bus).bus d) at e
    generalize m fuel Chip p.bus d = r at e
    generalize m fuel Chip (p.calm d.bus).bus d = r' at e
    obtain ⟨r, c, st⟩ := r
    obtain ⟨r', c', st'⟩ := r'
    cases e
    rfl
  · exact .inr e

theorem unless_with (p : Plan E) {s s' : S} {m : Nat → (W : Type) → Bus W E → M (S × Device W H) ε α} {find : Res ε α → Option E}
    (hm : ∀ fuel, PlayWith s (m fuel)) (ht : ∀ fuel (p : Plan E), Tallies find (m fuel (TW Chip E) (traced p.bus))) {d d' : Device Chip H} {x : α}
    (h : Succeeds (fun fuel => m fuel Chip (p.calm d.bus).bus) (s, d) x (s', d')) :
    SucceedsUnless p.faults (fun s => s.2.bus) find (fun fuel => m fuel Chip p.bus) (s, d) x (s', d') := by
  obtain ⟨_, N, h2⟩ := h
  refine ⟨N, fun fuel hN => ?_⟩
  have e := plays_either (hm fuel d.state) (f := fun x => find x.1) (fun w p => ht fuel p (s, ⟨w, d.state⟩)) p d.bus
  rcases e with e | e
  · refine .inl ?_
    rw [← h2 fuel hN]
    dsimp only at e ⊢
    change apartsWith (m fuel Chip p.bus (s, d)) = apartsWith (m fuel Chip (p.calm d.bus).bus (s, d)) at e
    generalize m fuel Chip p.bus (s, d) = r at e
    generalize m fuel Chip (p.calm d.bus).bus (s, d) = r' at e
    obtain ⟨r, s1, c, st⟩ := r
    obtain ⟨r', s2, c', st'⟩ := r'
    cases e
    rfl
  · exact .inr e

/-! ## TCP -/

/-- C135, TCP `send`: the call returns a bus error, or `Ok`; then the peer has got, or is to get, the bytes accepted before, and those it took. -/
theorem C135_tcp_send {n : Nat} (hn : n < 8) (fuel : Nat) (remote : SockAddr) (d0 d1 d : Device Chip H)
    (hz : SizesOk (d0.bus.socks n).mem)
    (hconn : Device.tcpConnect (Chip.dev sched0 faults0).bus fuel ⟨Socket.new (BitVec.ofNat 8 n)⟩ remote d0 = (.ok (), d1))
    (acc del : List U8) (hrun : TcpRough sched faults n d1.bus acc del d.bus) (data : List U8)
    (hs : StatusFrom sched n (· = 0x17) d.bus) (hsr : (d.bus.socks n).sr = 0x17) (hc : Confirming sched n) :
    ∃ (k : Nat) (d' : Device Chip H),
      SucceedsUnless faults Device.bus inTcp
        (fun fuel => Device.tcpSend (Chip.dev sched faults).bus fuel ⟨Socket.new (BitVec.ofNat 8 n)⟩ data) d k d' ∧
      k ≤ data.length ∧ (d'.bus.socks n).stream ++ (d'.bus.socks n).pending = (d1.bus.socks n).stream ++ acc ++ data.take k ∧
      ((d.bus.socks n).una = (d.bus.socks n).txLimit → k = min data.length (d.bus.socks n).txSize) := by
  let p : Plan E := ⟨sched, faults⟩
  obtain ⟨k, d', h1, h2, h3, h4, _⟩ := C76_tcp_send (sched := (p.calm d.bus).sched) (faults := (p.calm d.bus).faults) hn (fun _ => rfl) hs.since
    hc.since fuel remote d0 d1 d hz hconn acc del (tcpRough_run hn hrun).past hsr data
  exact ⟨k, d', unless_dev p (m := fun fuel _ B => Device.tcpSend B fuel ⟨Socket.new (BitVec.ofNat 8 n)⟩ data)
    (fun fuel => .onBus (play_tcpSend _ fuel data)) (fun fuel p => FailStop.tcp (fs_tcpSend fuel data)) h1, h2,
    by rw [h3, (C131_tcp hn fuel remote d0 d1 hz hconn acc del _ hrun).1], h4⟩

/-- C135, TCP `receive`: the call returns a bus error, or `Ok`; then it goes on where the calls before that returned `Ok` had got to. -/
theorem C135_tcp_receive {n : Nat} (hn : n < 8) (fuel : Nat) (remote : SockAddr) (d0 d1 d : Device Chip H)
    (hz : SizesOk (d0.bus.socks n).mem)
    (hconn : Device.tcpConnect (Chip.dev sched0 faults0).bus fuel ⟨Socket.new (BitVec.ofNat 8 n)⟩ remote d0 = (.ok (), d1))
    (acc del : List U8) (hrun : TcpRough sched faults n d1.bus acc del d.bus)
    (hs : StatusFrom sched n (· = 0x17) d.bus) (hsr : (d.bus.socks n).sr = 0x17) (buf : List U8) :
    ∃ (k : Nat) (buf' : List U8) (d' : Device Chip H),
      SucceedsUnless faults (fun s => s.2.bus) inTcp (fun fuel => Device.tcpReceive (Chip.dev sched faults).bus fuel ⟨Socket.new (BitVec.ofNat 8 n)⟩)
        (buf, d) k (buf', d') ∧
      ((d.bus.socks n).ir &&& 4 ≠ 0 → min buf.length (d.bus.socks n).queue.length ≤ k) ∧
      k ≤ buf.length ∧ buf'.length = buf.length ∧
      ∃ before, (d1.bus.socks n).arrived = before ++ (d1.bus.socks n).queue ∧
        (d'.bus.socks n).arrived = before ++ (del ++ buf'.take k) ++ (d'.bus.socks n).queue := by
  let p : Plan E := ⟨sched, faults⟩
  obtain ⟨k, buf', d', h1, h2, h3, h4, ⟨before, h5, h6⟩, _⟩ := C76_tcp_receive (sched := (p.calm d.bus).sched) (faults := (p.calm d.bus).faults) hn
    (fun _ => rfl) hs.since fuel remote d0 d1 d hz hconn acc del (tcpRough_run hn hrun).past hsr buf
  obtain ⟨A, g1, g2⟩ := (C131_tcp hn fuel remote d0 d1 hz hconn acc del _ hrun).2
  have e1 : before = A ++ del := List.append_cancel_right (h5.symm.trans g2)
  subst e1
  exact ⟨k, buf', d', unless_with p (m := fun fuel _ B => Device.tcpReceive B fuel ⟨Socket.new (BitVec.ofNat 8 n)⟩)
    (fun fuel => .onSockBus (play_tcpReceive _ fuel buf)) (fun fuel p => FailStop.tcp (fs_tcpReceive fuel)) h1, h2, h3, h4, A, g1,
    by rw [h6, List.append_assoc A]⟩

/-! ## UDP -/

/-- C135, UDP `send`: the call returns a bus error, or `Ok`; then all of its data has left, after that of the sends that returned `Ok` before. -/
theorem C135_udp_send {n : Nat} (hn : n < 8) {u0 u : UdpSocket} {c0 : Chip} {sent : List (SockAddr4 × List U8)} {got : List UdpGot} {d : Device Chip H}
    (ho : UdpOpened sched0 faults0 n u0 c0) (hr : UdpRough sched faults n u0 c0 sent got u d.bus) (dst : SockAddr4)
    (hdst : u.destination = some dst) (data : List U8)
    (hs : StatusFrom sched n (· = 0x22) d.bus) (hl : LosslessFrom sched n d.bus) (he : Emitting sched n)
    (hsr : (d.bus.socks n).sr = 0x22) (hq : (d.bus.socks n).NoTimeout) :
    ∃ d' : Device Chip H, SucceedsUnless faults Device.bus inNb (fun fuel => Device.udpSend (Chip.dev sched faults).bus fuel u data) d () d' ∧
      ∃ ps, UdpSent.All (c0.socks n).txSize (sent.map fun x => ⟨x.1, x.2, true⟩) ps ∧
        (d'.bus.socks n).packets = (c0.socks n).packets ++ ps ++
          (pieces (d.bus.socks n).txSize data).map (fun p => ⟨(wire dst).1, (wire dst).2, p, true⟩) := by
  let p : Plan E := ⟨sched, faults⟩
  obtain ⟨⟨ps, g1, g2⟩, log, run⟩ := udpRough_run hn ho hr
  obtain ⟨d', h1, h2, _⟩ := C76_udp_send (sched := (p.calm d.bus).sched) (faults := (p.calm d.bus).faults) hn (fun _ => rfl) hs.since he.since hl.since
    ho run.past hsr hq dst hdst data
  exact ⟨d', unless_dev p (m := fun fuel _ B => Device.udpSend B fuel u data) (fun fuel => .onBus (play_udpSend u fuel data))
    (fun fuel p => FailStop.nb (fs_udpSend fuel data)) h1, ps, g1, by rw [h2, g2]⟩

/-- C135, UDP `receive`: if a datagram is queued, and RECV announced, a call with a buffer that has room for it returns a bus error, or `Ok`; then it brings the
datagram. -/
theorem C135_udp_receive {n : Nat} (hn : n < 8) {u0 u : UdpSocket} {c0 : Chip} {sent : List (SockAddr4 × List U8)} {got : List UdpGot} {d : Device Chip H}
    (ho : UdpOpened sched0 faults0 n u0 c0) (hr : UdpRough sched faults n u0 c0 sent got u d.bus) (dg : Dgram) (rest : List Dgram)
    (hq : (d.bus.socks n).Queued (dg :: rest)) (hir : (d.bus.socks n).ir &&& 4 ≠ 0)
    (hs : StatusFrom sched n (· = 0x22) d.bus) (hsr : (d.bus.socks n).sr = 0x22)
    (buf : List U8) (hb : buf ≠ []) (hlen : dg.payload.length ≤ buf.length) :
    ∃ (k : Nat) (a : SockAddr4) (buf' : List U8) (d' : Device Chip H),
      SucceedsUnless faults (fun s => s.2.bus) inNb (fun fuel => Device.udpReceive (Chip.dev sched faults).bus fuel u) (buf, d) (k, .v4 a) (buf', d') ∧
      wire a = (dg.ip, dg.port) ∧ buf'.take dg.payload.length = dg.payload := by
  let p : Plan E := ⟨sched, faults⟩
  obtain ⟨_, log, run⟩ := udpRough_run hn ho hr
  obtain ⟨k, a, buf', d', h1, h2, h3, _⟩ := C76_udp_receive (sched := (p.calm d.bus).sched) (faults := (p.calm d.bus).faults) hn (fun _ => rfl) hs.since
    ho run.past hsr dg rest hq hir buf hb hlen
  exact ⟨k, a, buf', d', unless_with p (m := fun fuel _ B => Device.udpReceive B fuel u)
    (fun fuel => .onSockBus (play_udpReceived u fuel buf)) (fun fuel p => FailStop.nb (fs_udpReceive fuel)) h1, h2, h3⟩

/-! ## MACRAW -/

/-- C135, `write_frame`: the call returns a bus error, or `Ok`; then the frame has left, after those of the calls that returned `Ok` before. -/
theorem C135_raw_write {r : RawDevice} {c0 c : Chip} {sent : List (List U8)} {got : List RawGot} (ho : RawOpened sched0 faults0 r c0)
    (hr : RawRough sched faults r c0 sent got c) (frame : List U8)
    (hl : LosslessFrom sched 0 c) (he : Emitting sched 0) (hc : Confirming sched 0) (hne : frame ≠ []) (hz : frame.length ≤ 16384) :
    ∃ c', SucceedsUnless faults id bare (fun fuel => r.writeFrame (Chip.dev sched faults).bus fuel frame) c frame.length c' ∧
      ∃ ps, (c'.socks 0).packets = (c0.socks 0).packets ++ ps ∧ ps.map Packet.data = sent ++ [frame] ∧ ∀ p ∈ ps, p.delivered = true := by
  let p : Plan E := ⟨sched, faults⟩
  obtain ⟨log, run⟩ := rawRough_isRun ho hr
  obtain ⟨⟨ps, g1, g2, g3⟩, _⟩ := C131_raw ho hr
  obtain ⟨c', ⟨_, N, hN⟩, ip, port, h2⟩ := C76_raw_write (sched := (p.calm c).sched) (faults := (p.calm c).faults) (fun _ => rfl) he.since hc.since hl.since
    ho run.past frame hne hz
  refine ⟨c', ⟨N, fun fuel h => ?_⟩, ps ++ [⟨ip, port, frame, true⟩], by rw [h2, g1, List.append_assoc], by rw [List.map_append, g2]; rfl, fun q hq => ?_⟩
  · rcases plays_either (play_rawWrite r fuel frame) (f := bare) (fun w p => FailStop.bare (fs_raw_writeFrame fuel r frame) w) p c with e | e
    · exact .inl (e.trans (hN fuel h))
    · exact .inr e
  · rcases List.mem_append.mp hq with h | h
    · exact g3 q h
    · rw [List.mem_singleton.mp h]

/-- C135, `read_frame`: if a frame is queued, the call returns a bus error, or `Ok`; then it brings the frame. -/
theorem C135_raw_read {r : RawDevice} {c0 c : Chip} {sent : List (List U8)} {got : List RawGot} (ho : RawOpened sched0 faults0 r c0)
    (hr : RawRough sched faults r c0 sent got c) (f : List U8) (rest : List (List U8)) (hq : (c.socks 0).Frames (f :: rest)) (buf : List U8) :
    ∃ k buf' c', SucceedsUnless faults Prod.snd bare (fun fuel => r.readFrame (Chip.dev sched faults).bus fuel) (buf, c) k (buf', c') ∧
      RawGot.Brings ⟨buf, k, buf'⟩ f := by
  let p : Plan E := ⟨sched, faults⟩
  obtain ⟨log, run⟩ := rawRough_isRun ho hr
  obtain ⟨k, buf', c', ⟨_, N, hN⟩, h2⟩ := C76_raw_read (sched := (p.calm c).sched) (faults := (p.calm c).faults) (fun _ => rfl) ho run.past _ hq buf
  refine ⟨k, buf', c', ⟨N, fun fuel h => ?_⟩, (h2 f rest rfl).1⟩
  rcases plays_either (play_rawRead r fuel buf) (f := fun x => bare x.1) (fun w p => FailStop.bare (fs_raw_readFrame fuel r) (buf, w)) p c with e | e
  · refine .inl (Eq.trans ?_ (hN fuel h))
    change aside (r.readFrame p.bus fuel (buf, c)) = aside (r.readFrame (p.calm c).bus fuel (buf, c)) at e
    change r.readFrame p.bus fuel (buf, c) = r.readFrame (p.calm c).bus fuel (buf, c)
    generalize r.readFrame p.bus fuel (buf, c) = x at e
    generalize r.readFrame (p.calm c).bus fuel (buf, c) = y at e
    obtain ⟨x, s1, c1⟩ := x
    obtain ⟨y, s2, c2⟩ := y
    cases e
    rfl
  · exact .inr e

/-! Cases: both ways occur. A call that meets the failing transfer (`half_sent`, `half_received`, `half_udp`, `half_dgram`, `half_written`, `half_frame` say what it
returns), and the one after it, for which the theorem says that it gets through. -/

example := C135_tcp_send (n := 0) (by decide) 100 demoRemote demoDevice drainConnected drainConnected powerUp_sizes drain_connect [] []
  (.start (sched := drainSched) (faults := faultAt 15)) [7, 8, 9] (fun k x _ h => drain_status k x h) (by decide +kernel) drain_confirming

example : ∃ d' : Device Chip Unit,
    Succeeds (fun fuel => Device.tcpSend (Chip.dev drainSched (faultAt 15)).bus fuel ⟨Socket.new (BitVec.ofNat 8 0)⟩ [7, 8, 9]) halfSent 3 d' := by
  obtain ⟨k, d', ⟨N, h1⟩, _, _, h4⟩ := C135_tcp_send (n := 0) (by decide) 100 demoRemote demoDevice drainConnected halfSent powerUp_sizes drain_connect [] []
    (.failedSend 9 [7, 8, 9] _ (.start (sched := drainSched) (faults := faultAt 15)) half_sent nofun (by decide +kernel)) [7, 8, 9]
    (fun k x _ h => drain_status k x h) (by decide +kernel) drain_confirming
  have hk : k = 3 := (h4 (by decide +kernel)).trans (by decide +kernel)
  subst hk
  refine ⟨d', nofun, N, fun fuel h => ?_⟩
  rcases h1 fuel h with h | ⟨e, i, k, _, h3, _, h5⟩
  · exact h
  · rw [faultAt_past (i := 15) (c := halfSent.bus) (by decide +kernel) i h3] at h5
    cases h5

example := C135_tcp_receive (n := 0) (by decide) 100 demoRemote demoDevice demoConnected demoArrived powerUp_sizes demo_connect [] []
  (.other (.start (sched := demoSched) (faults := faultAt 18)) demo_arrives) (fun k x _ h => demo_status k x h) (by decide +kernel) [9, 9]

example := C135_tcp_receive (n := 0) (by decide) 100 demoRemote demoDevice demoConnected halfReceived.2 powerUp_sizes demo_connect [] []
  (.failedReceive 9 [9, 9] _ _ (.other (.start (sched := demoSched) (faults := faultAt 18)) demo_arrives) half_received nofun (by decide +kernel))
  (fun k x _ h => demo_status k x h) (by decide +kernel) [0, 0]

example := C135_udp_send (n := 0) (by decide) demo_opened (.start (sched := emitSched) (faults := faultAt 13)) (d := (udpConnected noFaults).2) addrA
  (by decide +kernel) [7, 8, 9] (fun k x _ h => emit_status (p := (· = 0x22)) k x h) (fun k _ => emit_lossless k) emit_emitting
  (by decide +kernel) (by unfold Sock.NoTimeout; decide +kernel)

example := C135_udp_send (n := 0) (by decide) demo_opened (.failedSend 9 [7, 8, 9] _ (.start (sched := emitSched) (faults := faultAt 13)) half_udp nofun
  (by decide +kernel)) addrA (by decide +kernel) [7, 8, 9] (fun k x _ h => emit_status (p := (· = 0x22)) k x h) (fun k _ => emit_lossless k) emit_emitting
  (by decide +kernel) (by unfold Sock.NoTimeout; decide +kernel)

example := C135_udp_receive (n := 0) (by decide) arrive_opened (.other (.start (sched := arriveSched [dgramA, dgramB]) (faults := faultAt 14)) arrive_arrives)
  dgramA [dgramB] ⟨by simp [Dgram.Wf, dgramA, dgramB], by decide +kernel⟩ (by decide +kernel)
  (fun k x _ h => by unfold arriveSched at h; split at h <;> simp at h) (by decide +kernel) [9, 9] nofun (by decide)

example := C135_udp_receive (n := 0) (by decide) arrive_opened (.failedReceive 9 [9, 9] _ _ (.other
  (.start (sched := arriveSched [dgramA, dgramB]) (faults := faultAt 14)) arrive_arrives) half_dgram nofun (by decide +kernel)) dgramA [dgramB]
  ⟨by simp [Dgram.Wf, dgramA, dgramB], by decide +kernel⟩ (by decide +kernel)
  (fun k x _ h => by unfold arriveSched at h; split at h <;> simp at h) (by decide +kernel) [0, 0, 0, 0] nofun (by decide)

example := C135_raw_write rawDemo_opened (.start (sched := frameSched) (faults := faultAt 20)) [7, 8] (frame_lossless _) frame_emitting frame_confirming
  (by simp) (by simp)

example := C135_raw_write rawDemo_opened (.failedWrite 9 [7, 8] _ (.start (sched := frameSched) (faults := faultAt 20)) half_written nofun (by decide +kernel))
  [7, 8] (frame_lossless _) frame_emitting frame_confirming (by simp) (by simp)

example := C135_raw_read rawDemo_opened (.other (.start (sched := frameSched) (faults := faultAt 22)) frame_arrives) [1, 2, 3, 4] [[5, 6]]
  ⟨by simp, by decide +kernel⟩ [9, 9]

example := C135_raw_read rawDemo_opened (.failedRead 9 [9, 9] _ _ (.other (.start (sched := frameSched) (faults := faultAt 22))
  frame_arrives) half_frame nofun (by decide +kernel)) [1, 2, 3, 4] [[5, 6]] ⟨by simp, by decide +kernel⟩ [0, 0, 0, 0]

end W5500.Props
