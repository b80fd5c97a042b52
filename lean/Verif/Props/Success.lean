import Verif.Props.Returns
import Verif.Props.Outcome
import Verif.Props.UdpOpen
import Verif.Proofs.SuccessOpen
/-! # Calls that succeed

C76 If nothing goes wrong, nothing is reported: on a chip whose transfers do not fail, whose socket stays in the state it
has to be in, and which sends what it is given and says so, every call returns `Ok`, with the effect it is called for. -/

namespace W5500.Props
open W5500.Spec Sock
variable {W E H : Type} {sched : Nat → List (Nat × Act)} {faults : Nat → Option (E × Nat)}
  {sched0 : Nat → List (Nat × Act)} {faults0 : Nat → Option (E × Nat)}

theorem succeed {σ ε α : Type} {call : Nat → M σ ε α} {s : σ} (h : Finishes call s) (hp : ∀ k, (call k s).1 ≠ .panic)
    (he : ∀ k e s', call k s ≠ (.err e, s')) : ∃ a s', Succeeds call s a s' ∧ ∃ k, call k s = (.ok a, s') := by
  obtain ⟨⟨r, s'⟩, hr, N, hN⟩ := h
  have h1 := hN N (Nat.le_refl _)
  cases r with
  | ok a => exact ⟨a, s', ⟨hr, N, hN⟩, N, h1⟩
  | err e => exact absurd h1 (he N e s')
  | panic => exact absurd (congrArg Prod.fst h1) (hp N)
  | fuel => exact absurd rfl hr

/-! ## UDP -/

theorem all_delivered {dst : SockAddr4} {ds : List (List U8)} {ps : List Packet} (h : Carry (wire dst) ds ps)
    (hd : ∀ q ∈ ps, q.delivered = true) : ps = ds.map fun p => ⟨(wire dst).1, (wire dst).2, p, true⟩ := by
  rw [← h.1, List.map_map]
  refine (List.map_id ps).symm.trans (List.map_congr_left fun p hp => ?_)
  show p = ⟨_, _, p.data, true⟩
  rw [← (h.2 p hp).1, ← (h.2 p hp).2, ← hd p hp]

/-- C76, UDP `send`: the call returns `Ok`; the data has left, in pieces as large as the TX buffer, in order, none dropped;
and the socket is ready for the next call. -/
theorem C76_udp_send {n : Nat} (hn : n < 8) (hf : ∀ i, faults i = none) (hs : StatusIn sched n (· = 0x22))
    (he : Emitting sched n) (hl : Lossless sched n) {u0 u : UdpSocket} {c0 : Chip} {log : List UdpSent} {got : List UdpGot}
    {d : Device Chip H} (ho : UdpOpened sched0 faults0 n u0 c0) (hr : UdpRun sched faults n u0 c0 log got u d.bus)
    (hsr : (d.bus.socks n).sr = 0x22) (hq : (d.bus.socks n).NoTimeout) (dst : SockAddr4) (hd : u.destination = some dst)
    (data : List U8) :
    ∃ d' : Device Chip H, Succeeds (fun fuel => Device.udpSend (Chip.dev sched faults).bus fuel u data) d () d' ∧
      (d'.bus.socks n).packets = (d.bus.socks n).packets ++
        (pieces (d.bus.socks n).txSize data).map (fun p => ⟨(wire dst).1, (wire dst).2, p, true⟩) ∧
      (d'.bus.socks n).sr = 0x22 ∧ (d'.bus.socks n).NoTimeout := by
  obtain ⟨A, h0⟩ := opened_inv hn ho
  obtain ⟨hsk, hc, sent, ds, _, _, hi⟩ := udpRun_inv hn h0 hr
  have hz : (c0.socks n).txSize ≠ 0 := by
    rw [← hi.size]
    exact Nat.ne_of_gt (Nat.lt_of_lt_of_le (by decide) (GoodSize.pos hi.idle.base.size))
  have hst : Steady (d.bus.socks n).packets (d.bus.socks n) :=
    ⟨hsr, hi.idle.base.mode, noTimeout_iff.mp hq, [], (List.append_nil _).symm, nofun⟩
  have key := fun fuel => steady_sendAll (faults := faults) hn hf hs hl (d.bus.socks n).packets (d.bus.socks n).dest
    ((c0.socks n).packets ++ sent) (A ++ encAll ds) _ hz u hsk
    (by rw [hd]; rfl) fuel data
  obtain ⟨_, d', h1, k, h2⟩ := succeed (C68_udp_send hn he ho hr data) (fun k => (np_deviceUdpSend (calm_bus _) k u data).run d)
    fun k e d' h => (key k).err (s := d.bus) (s' := d'.bus) ⟨hst, hi.idle, hi.size⟩ (onBus_run h)
  have h3 := (key k).run d.bus ⟨hst, hi.idle, hi.size⟩
  rw [onBus_run h2] at h3
  obtain ⟨a1, _, a3, ps', a4, a5⟩ : Steady _ (d'.bus.socks n) := h3
  obtain ⟨dst', ps, b1, b2, b3, _⟩ := C36_send hn ho hr k data h2
  obtain rfl : dst = dst' := Option.some.inj (hd.symm.trans b1)
  refine ⟨d', h1, ?_, a1, noTimeout_iff.mpr a3⟩
  obtain rfl : ps' = ps := List.append_cancel_left (a4.symm.trans b2)
  rw [b2, all_delivered b3 a5]

/-- C76, UDP `send_to`: likewise, and from then on the address is the destination of the socket. -/
theorem C76_udp_send_to {n : Nat} (hn : n < 8) (hf : ∀ i, faults i = none) (hs : StatusIn sched n (· = 0x22))
    (he : Emitting sched n) (hl : Lossless sched n) {u0 u : UdpSocket} {c0 : Chip} {log : List UdpSent} {got : List UdpGot}
    {d : Device Chip H} (ho : UdpOpened sched0 faults0 n u0 c0) (hr : UdpRun sched faults n u0 c0 log got u d.bus)
    (hsr : (d.bus.socks n).sr = 0x22) (hq : (d.bus.socks n).NoTimeout) (dst : SockAddr4) (data : List U8) :
    ∃ d' : Device Chip H, Succeeds (fun fuel => Device.udpSendTo (Chip.dev sched faults).bus fuel (.v4 dst) data) (u, d) ()
        ({ u with destination := some dst }, d') ∧
      (d'.bus.socks n).packets = (d.bus.socks n).packets ++
        (pieces (d.bus.socks n).txSize data).map (fun p => ⟨(wire dst).1, (wire dst).2, p, true⟩) ∧
      (d'.bus.socks n).sr = 0x22 ∧ (d'.bus.socks n).NoTimeout := by
  obtain ⟨A, h0⟩ := opened_inv hn ho
  obtain ⟨hsk, hc, sent, ds, _, _, hi⟩ := udpRun_inv hn h0 hr
  have hz : (c0.socks n).txSize ≠ 0 := by
    rw [← hi.size]
    exact Nat.ne_of_gt (Nat.lt_of_lt_of_le (by decide) (GoodSize.pos hi.idle.base.size))
  have hst : Steady (d.bus.socks n).packets (d.bus.socks n) :=
    ⟨hsr, hi.idle.base.mode, noTimeout_iff.mp hq, [], (List.append_nil _).symm, nofun⟩
  have key := fun fuel => steady_sendTo (faults := faults) hn hf hs hl (d.bus.socks n).packets
    ((c0.socks n).packets ++ sent) (A ++ encAll ds) _ hz [] u hsk dst fuel data
  obtain ⟨_, ⟨u', d'⟩, h1, k, h2⟩ := succeed (C68_udp_send_to hn he ho hr (.v4 dst) data)
    (fun k => (np_deviceUdpSendTo (calm_bus _) k _ data).run (u, d))
    fun k e s' h => (key k).err (s := (u, d.bus)) (s' := (s'.1, s'.2.bus)) ⟨rfl, ⟨hst, hi⟩, hc⟩ (onSockBus_run h)
  have h3 := (key k).run (u, d.bus) ⟨rfl, ⟨hst, hi⟩, hc⟩
  rw [onSockBus_run h2] at h3
  obtain ⟨a1, _, a3, ps', a4, a5⟩ : Steady _ (d'.bus.socks n) := h3
  obtain ⟨ps, b2, b3⟩ := C36_send_to hn ho hr k dst data h2
  have hu : u' = { u with destination := some dst } := by
    have := (udp_sendTo (sched := sched) (faults := faults) hn u hsk k data dst (stable_udpIdle _ _ _ [])
      (fun s b x hb h1 h2 h => h.setMem b x (dest_indifferent hb h1 h2)) (fun s h => SentSome.none h)
      (udp_sendIdle hn { u with destination := some dst } hsk (wire dst) _ _ _ [] k data)).run (u, d.bus) ⟨rfl, hi, hc⟩
    rw [onSockBus_run h2] at this
    exact this.1
  subst hu
  refine ⟨d', h1, ?_, a1, noTimeout_iff.mpr a3⟩
  obtain rfl : ps' = ps := List.append_cancel_left (a4.symm.trans b2)
  rw [b2, all_delivered b3 a5]

/-- C76, any number of datagrams sent one after the other: every call returns `Ok`, and all of them have left, in order. -/
theorem C76_udp_sends {n : Nat} (hn : n < 8) (hf : ∀ i, faults i = none) (hs : StatusIn sched n (· = 0x22))
    (he : Emitting sched n) (hl : Lossless sched n) {u0 u : UdpSocket} {c0 : Chip} (ho : UdpOpened sched0 faults0 n u0 c0)
    (dst : SockAddr4) (hd : u.destination = some dst) (xs : List (List U8)) {log : List UdpSent} {got : List UdpGot}
    {d : Device Chip H} (hr : UdpRun sched faults n u0 c0 log got u d.bus) (hsr : (d.bus.socks n).sr = 0x22)
    (hq : (d.bus.socks n).NoTimeout) :
    ∃ d' : Device Chip H, AllSent (Chip.dev sched faults).bus u xs d d' ∧
      (d'.bus.socks n).packets = (d.bus.socks n).packets ++
        (xs.flatMap (pieces (c0.socks n).txSize)).map fun p => ⟨(wire dst).1, (wire dst).2, p, true⟩ := by
  induction xs generalizing d log with
  | nil => exact ⟨d, rfl, (List.append_nil _).symm⟩
  | cons x xs ih =>
    obtain ⟨d1, h1, h2, h3, h4⟩ := C76_udp_send hn hf hs he hl ho hr hsr hq dst hd x
    have ⟨_, N, hN⟩ := h1
    obtain ⟨d', h5, h6⟩ := ih (.send N x dst hr (hN N (Nat.le_refl _)) hd) h3 h4
    refine ⟨d', ⟨d1, h1, h5⟩, ?_⟩
    obtain ⟨A, h0⟩ := opened_inv hn ho
    obtain ⟨_, _, _, _, _, _, hi⟩ := udpRun_inv hn h0 hr
    rw [h6, h2, List.append_assoc, ← List.map_append, hi.size, List.flatMap_cons]

/-- C76, UDP `connect` to an IPv4 address, whatever the socket object was used for before, unless the socket was last used
for TCP or a timeout is still due: the call returns `Ok`, and the socket is ready. -/
theorem C76_udp_connect {n : Nat} (hn : n < 8) (hf : ∀ i, faults i = none) (hs : StatusIn sched n (· = 0x22))
    (hl : Lossless sched n) (u : UdpSocket) (hu : u.socket = Socket.new (BitVec.ofNat 8 n)) (d : Device Chip H)
    (hp : (d.bus.socks n).proto ≠ 1) (hd : (d.bus.socks n).owed.getLsbD 3 = false) (remote : SockAddr4) :
    ∃ d' : Device Chip H, Device.udpConnect (Chip.dev sched faults).bus (.v4 remote) (u, d) =
        (.ok (), ({ u with destination := some remote }, d')) ∧
      (d'.bus.socks n).sr = 0x22 ∧ (d'.bus.socks n).NoTimeout := by
  have hB := healthy_chip (sched := sched) hf
  have h1 : Sure (Device.udpConnect (Chip.dev sched faults).bus (.v4 remote) : M (UdpSocket × Device Chip H) _ _) :=
    .onSockBus (.bind .get fun _ => .bind (.mapErr (.onSnd (sure_udpOpen hB _))) fun _ => sure_setDestination hB _)
  obtain ⟨_, ⟨u', d'⟩, h2⟩ := h1.run (u, d)
  have h3 : u' = { u with destination := some remote } := by
    have h := C31_connect_script (Chip.dev sched faults).bus remote u d
    rw [h2] at h
    injection h with ha hb
    injection hb with hb _
    rw [hb, ← ha]
    rfl
  subst h3
  obtain ⟨K, h4⟩ : ∃ K, Steady K (d'.bus.socks n) := (udp_connectReady (faults := faults) hn hf hl hs u hu remote).ok (s := (u, d.bus))
    (s' := (_, d'.bus)) ⟨rfl, hp, hd⟩ (onSockBus_run h2)
  exact ⟨d', h2, h4.sr, noTimeout_iff.mpr h4.quiet⟩

/-- C76, UDP `bind`, likewise. -/
theorem C76_udp_bind {n : Nat} (hn : n < 8) (hf : ∀ i, faults i = none) (hl : Lossless sched n) (u : UdpSocket)
    (hu : u.socket = Socket.new (BitVec.ofNat 8 n)) (d : Device Chip H) (hp : (d.bus.socks n).proto ≠ 1)
    (hd : (d.bus.socks n).owed.getLsbD 3 = false) (port : U16) :
    ∃ d' : Device Chip H, Device.udpBind (Chip.dev sched faults).bus port (u, d) = (.ok (), ({ u with port := port }, d')) ∧
      (d'.bus.socks n).sr = 0x22 ∧ (d'.bus.socks n).NoTimeout := by
  have hB := healthy_chip (sched := sched) hf
  have h1 : Sure (Device.udpBind (Chip.dev sched faults).bus port : M (UdpSocket × Device Chip H) _ _) :=
    .onSockBus (.bind (sure_setPort hB _) fun _ => .bind .get fun _ => .mapErr (.onSnd (sure_udpOpen hB _)))
  obtain ⟨_, ⟨u', d'⟩, h2⟩ := h1.run (u, d)
  obtain ⟨rfl, K, h4⟩ := (udp_bindReady (sched := sched) (faults := faults) hn hf hl u hu port).ok (s := (u, d.bus))
    (s' := (u', d'.bus)) ⟨rfl, hp, hd⟩ (onSockBus_run h2)
  exact ⟨d', h2, h4.sr, noTimeout_iff.mpr h4.quiet⟩

/-- C76, a whole session: `connect`, then any number of datagrams. Every call returns `Ok`, and all datagrams have left for
the address, in order, in pieces as large as the TX buffer. -/
theorem C76_udp_session {n : Nat} (hn : n < 8) (hf : ∀ i, faults i = none) (hs : StatusIn sched n (· = 0x22))
    (he : Emitting sched n) (hl : Lossless sched n) (u : UdpSocket) (d : Device Chip H) (h : UdpCalls sched0 faults0 n u d.bus)
    (hp : (d.bus.socks n).proto ≠ 1) (hd : (d.bus.socks n).owed.getLsbD 3 = false) (dst : SockAddr4)
    (xs : List (List U8)) :
    ∃ d1 d' : Device Chip H, Device.udpConnect (Chip.dev sched faults).bus (.v4 dst) (u, d) =
        (.ok (), ({ u with destination := some dst }, d1)) ∧
      AllSent (Chip.dev sched faults).bus { u with destination := some dst } xs d1 d' ∧
      (d'.bus.socks n).packets = (d1.bus.socks n).packets ++
        (xs.flatMap (pieces (d1.bus.socks n).txSize)).map fun p => ⟨(wire dst).1, (wire dst).2, p, true⟩ := by
  obtain ⟨d1, h1, h2, h3⟩ := C76_udp_connect (faults := faults) hn hf hs hl u (udpCalls_object hn h).sock d hp hd dst
  obtain ⟨d', h4, h5⟩ := C76_udp_sends hn hf hs he hl 
    (.anew (.v4 dst) (udpCalls_object hn h).sock (udpCalls_object hn h).sizes (udpCalls_object hn h).coherent h1 : UdpOpened sched faults n _ _) dst rfl xs .start h2 h3
  exact ⟨d1, d', h1, h4, h5⟩

/-- C76, UDP `receive`: if a datagram is queued and announced, and the buffer has room for it, the call returns `Ok`, with
the payload at the beginning of the buffer, and the address it came from. -/
theorem C76_udp_receive {n : Nat} (hn : n < 8) (hf : ∀ i, faults i = none) (hs : StatusIn sched n (· = 0x22))
    {u0 u : UdpSocket} {c0 : Chip} {log : List UdpSent} {got : List UdpGot} {d : Device Chip H}
    (ho : UdpOpened sched0 faults0 n u0 c0) (hr : UdpRun sched faults n u0 c0 log got u d.bus)
    (hsr : (d.bus.socks n).sr = 0x22) (dg : Dgram) (rest : List Dgram) (hq : (d.bus.socks n).Queued (dg :: rest))
    (hir : (d.bus.socks n).ir &&& 4 ≠ 0) (buf : List U8) (hb : buf ≠ []) (hlen : dg.payload.length ≤ buf.length) :
    ∃ (k : Nat) (a : SockAddr4) (buf' : List U8) (d' : Device Chip H),
      Succeeds (fun fuel => Device.udpReceive (Chip.dev sched faults).bus fuel u) (buf, d) (k, .v4 a) (buf', d') ∧
      wire a = (dg.ip, dg.port) ∧ buf'.take dg.payload.length = dg.payload ∧ buf'.length = buf.length ∧
      (d'.bus.socks n).sr = 0x22 := by
  obtain ⟨A, h0⟩ := opened_inv hn ho
  obtain ⟨hsk, hc, sent, ds, _, _, hi⟩ := udpRun_inv hn h0 hr
  have hi' : UdpIdle ((c0.socks n).packets ++ sent) (A ++ encAll ds) (c0.socks n).txSize (dg :: rest) (d.bus.socks n) :=
    ⟨hi.idle, hi.size, [], by rw [List.append_nil]; exact hq⟩
  have key := fun fuel => HoareE.bind (firm_udpReceive (sched := sched) (faults := faults) (firm_sr hs) hn hf (fun _ h => h) u hsk
    ((c0.socks n).packets ++ sent) (A ++ encAll ds) (c0.socks n).txSize dg rest fuel buf hb)
    (f := fun x => pure (x.1, SockAddr.v4 x.2.origin)) (Q' := fun _ s => At n (fun s => s.sr = 0x22) s.2)
    fun x => .pure fun _ h => h
  have hz : (d.bus.socks n).rxSize < 65536 := Nat.lt_of_le_of_lt (GoodSize.le hi.idle.rx.core.size) (by decide)
  obtain ⟨⟨k, origin⟩, ⟨buf', d'⟩, h1, fuel, h2⟩ := succeed (C67_udp (sched := sched) (faults := faults) hn u hsk d hz buf).2
    (fun k hp => by
      obtain ⟨dg', rest', more, e1, e2, e3, _⟩ := (C41_chip_partial hn ho hr k buf _ _ (Prod.ext hp rfl) _ hq).1 rfl
      cases e1
      omega)
    (fun k e s' h => (key k).err (s := (buf, d.bus)) (s' := (s'.1, s'.2.bus)) ⟨rfl, hsr, hi', hir⟩ (onSockBus_run h))
  obtain ⟨hdr, dg', rest', more, e1, e2, e3, e4⟩ := received hn ho hr fuel buf buf' k origin h2 _ hq
  cases e1
  refine ⟨k, hdr.origin, buf', d', e3 ▸ h1, e2.origin, e2.payload, e2.keeps, ?_⟩
  exact (key fuel).ok (s := (buf, d.bus)) (s' := (buf', d'.bus)) ⟨rfl, hsr, hi', hir⟩ (onSockBus_run h2)

/-! ## TCP -/

/-- C76, TCP `connect` to an IPv4 address, from any state of the chip, if the socket takes only states of TCP sockets and
again and again a verdict is reached. -/
theorem C76_tcp_connect {n : Nat} (hn : n < 8) (hf : ∀ i, faults i = none) (hs : StatusIn sched n TcpState)
    (ha : Answering sched n) (remote : SockAddr4) (d : Device Chip H) :
    ∃ d', Succeeds (fun fuel => Device.tcpConnect (Chip.dev sched faults).bus fuel ⟨Socket.new (BitVec.ofNat 8 n)⟩ (.v4 remote)) d
      () d' := by
  obtain ⟨_, d', h, _⟩ := succeed (C68_tcp_connect (faults := faults) hn ha (.v4 remote) d)
    (fun k => (np_deviceTcpConnect (calm_bus _) k _ _).run d)
    fun k e d' h => (connect_sure (sched := sched) (faults := faults) hn hf hs _ remote k).err (s := d.bus) (s' := d'.bus) trivial (onBus_run h)
  exact ⟨d', h⟩

/-- C76, TCP `send`, after a `connect` (with `sched0`, `faults0` for what happened until then) and any calls: the call accepts a first part of the data, which goes to the end of
what the peer has been and will be sent; all of it, up to the size of the TX buffer, if no unacknowledged byte is left
in the TX buffer. The connection stays. -/
theorem C76_tcp_send {n : Nat} (hn : n < 8) (hf : ∀ i, faults i = none) (hs : StatusIn sched n (· = 0x17))
    (hc : Confirming sched n) (fuel : Nat) (remote : SockAddr) (d0 d1 d : Device Chip H)
    (hz : SizesOk (d0.bus.socks n).mem)
    (hconn : Device.tcpConnect (Chip.dev sched0 faults0).bus fuel ⟨Socket.new (BitVec.ofNat 8 n)⟩ remote d0 = (.ok (), d1))
    (acc del : List U8) (hrun : TcpRun sched faults n d1.bus acc del d.bus)
    (hsr : (d.bus.socks n).sr = 0x17) (data : List U8) :
    ∃ (k : Nat) (d' : Device Chip H),
      Succeeds (fun fuel => Device.tcpSend (Chip.dev sched faults).bus fuel ⟨Socket.new (BitVec.ofNat 8 n)⟩ data) d k d' ∧
      k ≤ data.length ∧
      (d'.bus.socks n).stream ++ (d'.bus.socks n).pending =
        (d.bus.socks n).stream ++ (d.bus.socks n).pending ++ data.take k ∧
      ((d.bus.socks n).una = (d.bus.socks n).txLimit → k = min data.length (d.bus.socks n).txSize) ∧
      (d'.bus.socks n).sr = 0x17 := by
  obtain ⟨_, _, ⟨S, A, hfr⟩, _⟩ := tcpConnect_idle hn hz hconn
  have h0 := tcpRun_idle hn hrun hfr.1
  have key := fun k => firm_tcpSend (sched := sched) (faults := faults) (firm_sr hs) hn hf (fun _ h => h) k data
  obtain ⟨k, d', h1, fuel', h2⟩ := succeed (C68_tcp_send (faults := faults) hn hc data d h0.tx.tcp)
    (fun k => (np_deviceTcpSend (calm_bus _) k _ _).run d)
    fun k e d' h => (key k).err (s := d.bus) (s' := d'.bus) hsr (onBus_run h)
  obtain ⟨h3, f, ⟨v1, v2, f1, f2, f3, f4⟩, h4⟩ := (tcp_send (sched := sched) (faults := faults) hn _ _ _ _ _ fuel' data).ok
    (s := d.bus) (s' := d'.bus) ⟨h0, Nat.le_refl _, rfl, rfl⟩ (onBus_run h2)
  refine ⟨k, d', h1, h4 ▸ Nat.min_le_left _ _, ?_, fun hu => ?_, (key fuel').ok (s := d.bus) (s' := d'.bus) hsr (onBus_run h2)⟩
  · rw [h3.tx.out, h0.tx.out]
  · have : (d.bus.socks n).used = 0 := by unfold used; rw [hu]; simp
    rw [h4]
    congr 1
    omega

/-- C76, TCP `receive`: the call returns `Ok`; if bytes are queued and announced, at least as many of them as the buffer
holds. What the buffer gets is what follows in the stream of arrived bytes. The connection stays. -/
theorem C76_tcp_receive {n : Nat} (hn : n < 8) (hf : ∀ i, faults i = none) (hs : StatusIn sched n (· = 0x17))
    (fuel : Nat) (remote : SockAddr) (d0 d1 d : Device Chip H) (hz : SizesOk (d0.bus.socks n).mem)
    (hconn : Device.tcpConnect (Chip.dev sched0 faults0).bus fuel ⟨Socket.new (BitVec.ofNat 8 n)⟩ remote d0 = (.ok (), d1))
    (acc del : List U8) (hrun : TcpRun sched faults n d1.bus acc del d.bus)
    (hsr : (d.bus.socks n).sr = 0x17) (buf : List U8) :
    ∃ (k : Nat) (buf' : List U8) (d' : Device Chip H),
      Succeeds (fun fuel => Device.tcpReceive (Chip.dev sched faults).bus fuel ⟨Socket.new (BitVec.ofNat 8 n)⟩) (buf, d) k (buf', d') ∧
      ((d.bus.socks n).ir &&& 4 ≠ 0 → min buf.length (d.bus.socks n).queue.length ≤ k) ∧
      k ≤ buf.length ∧ buf'.length = buf.length ∧
      (∃ before, (d.bus.socks n).arrived = before ++ (d.bus.socks n).queue ∧
        (d'.bus.socks n).arrived = before ++ buf'.take k ++ (d'.bus.socks n).queue) ∧
      (d'.bus.socks n).sr = 0x17 := by
  obtain ⟨_, _, ⟨S, A, hfr⟩, _⟩ := tcpConnect_idle hn hz hconn
  have h0 := tcpRun_idle hn hrun hfr.1
  have key := fun k => firm_tcpReceive (sched := sched) (faults := faults) (firm_sr hs) hn hf (fun _ h => h) k
  obtain ⟨k, ⟨buf', d'⟩, h1, fuel', h2⟩ := succeed (C67_tcp (sched := sched) (faults := faults) hn d
      (Nat.lt_of_le_of_lt (GoodSize.le h0.rx.core.size) (by decide)) buf).2
    (fun k => (np_deviceTcpReceive (calm_bus _) k _).run (buf, d))
    fun k e s' h => (key k).err (s := (buf, d.bus)) (s' := (s'.1, s'.2.bus)) hsr (onSockBus_run h)
  have hb := C46_buffer _ fuel' _ buf buf' d d' k h2
  have h3 := tcpRun_idle hn (TcpRun.receive fuel' buf buf' k hrun h2) hfr.1
  exact ⟨k, buf', d', h1, fun hp => (C47_partial n hn fuel fuel' remote d0 d1 d d' hz hconn acc del hrun hp buf buf' k h2).1,
    hb.1, hb.2.1, ⟨A ++ del, h0.rx.core.arrived, by rw [h3.rx.core.arrived, ← List.append_assoc A]⟩,
    (key fuel').ok (s := (buf, d.bus)) (s' := (buf', d'.bus)) hsr (onSockBus_run h2)⟩

/-! ## MACRAW -/

/-- C76, `write_frame` of a frame that fits. -/
theorem C76_raw_write (hf : ∀ i, faults i = none) (he : Emitting sched 0) (hc : Confirming sched 0) (hl : Lossless sched 0)
    {r : RawDevice} {c0 c : Chip} {log : List RawSent} {got : List RawGot} (ho : RawOpened sched0 faults0 r c0)
    (hr : RawRun sched faults r c0 log got c) (frame : List U8) (hne : frame ≠ []) (hz : frame.length ≤ 16384) :
    ∃ c', Succeeds (fun fuel => r.writeFrame (Chip.dev sched faults).bus fuel frame) c frame.length c' ∧
      ∃ ip port, (c'.socks 0).packets = (c.socks 0).packets ++ [⟨ip, port, frame, true⟩] := by
  obtain ⟨k, c', h1, fuel, h2⟩ := succeed (C68_raw_write he hc hl ho hr frame hne hz)
    (fun k => (np_rawWrite (calm_bus _) r k frame).run c)
    fun k e c' h => (noerr_rawWrite (faultless_chip (sched := sched) hf) r k frame).run c e (congrArg Prod.fst h)
  obtain ⟨rfl, _, _, h3⟩ := C57_chip ho hr fuel frame k h2
  exact ⟨c', h1, h3⟩

/-- C76, `read_frame`: the call returns `Ok`; if a frame is queued, with the oldest frame. -/
theorem C76_raw_read (hf : ∀ i, faults i = none) {r : RawDevice} {c0 c : Chip} {log : List RawSent} {got : List RawGot}
    (ho : RawOpened sched0 faults0 r c0) (hr : RawRun sched faults r c0 log got c) (queued : List (List U8))
    (hq : (c.socks 0).Frames queued) (buf : List U8) :
    ∃ k buf' c', Succeeds (fun fuel => r.readFrame (Chip.dev sched faults).bus fuel) (buf, c) k (buf', c') ∧
      ∀ f rest, queued = f :: rest → RawGot.Brings ⟨buf, k, buf'⟩ f ∧ ∃ later, (c'.socks 0).Frames (rest ++ later) := by
  obtain ⟨h1, A, h2, ps, fs, _, h3, h4⟩ := raw_inv ho hr
  obtain ⟨k, ⟨buf', c'⟩, h5, fuel, h6⟩ := succeed (C67_raw (sched := sched) (faults := faults) (n := 0) (by decide) r (by rw [h1]) c
      (Nat.lt_of_le_of_lt (GoodSize.le h4.busy.core.size) (by decide)) buf).2
    (fun k hp => by
      obtain ⟨w1, _, _, _, _, e1, _⟩ := (readFrame_panic _ (calm_bus _) k r buf _ c _).mp (Prod.ext hp rfl)
      rw [h1] at e1
      exact rawRead_nopanic (n := 0) (by decide) _ _ _ k c w1 h4 e1)
    fun k e s' h => noerr_rawRead (faultless_chip (sched := sched) hf) r k buf c e (congrArg Prod.fst h)
  refine ⟨k, buf', c', h5, fun f rest e => ?_⟩
  rcases C55_call ho hr queued hq fuel buf buf' k h6 with ⟨e1, _⟩ | ⟨f', rest', more, e1, e2, _, _, e3⟩
  · rw [e] at e1; exact nomatch e1
  · rw [e, List.cons_append, List.cons.injEq] at e1
    obtain ⟨rfl, rfl⟩ := e1
    refine ⟨e2, ?_⟩
    obtain ⟨later, hl, _⟩ := e3
    exact ⟨more ++ later, by rw [← List.append_assoc]; exact hl⟩

/-! ## Everything else -/

/-- C76, on any bus whose transfers do not fail: everything that only sets or reads registers returns `Ok`, from any state. -/
theorem C76_plain (B : Bus W E) (hB : Healthy B) (w : W) :
    (∀ (u : UdpSocket) (d : Device W H) port, ∃ s, Device.udpBind B port (u, d) = (.ok (), s)) ∧
    (∀ (u : UdpSocket) (d : Device W H) remote, ∃ s, Device.udpConnect B (.v4 remote) (u, d) = (.ok (), s)) ∧
    (∀ (u : UdpSocket) (d : Device W H) port, ∃ s, Device.onSockBus (UdpSocket.setPort B port) (u, d) = (.ok (), s)) ∧
    (∀ (u : UdpSocket) (d : Device W H), u.socket.index.toNat < 8 → ∃ s, Device.udpClose B u d = (.ok (), s)) ∧
    (∀ (t : TcpSocket) (d : Device W H), t.socket.index.toNat < 8 → ∃ s, Device.tcpClose B t d = (.ok (), s)) ∧
    (∀ d : Device W H, d.state.sockets = 0xFF → ∃ s, Device.reset B d = (.ok (), s)) ∧
    (∃ a w', Device.gateway B w = (.ok a, w')) ∧ (∃ a w', Device.subnetMask B w = (.ok a, w')) ∧
    (∃ a w', Device.mac B w = (.ok a, w')) ∧ (∃ a w', Device.ip B w = (.ok a, w')) ∧
    (∃ a w', Device.phyConfig B w = (.ok a, w')) ∧ (∃ a w', version B w = (.ok a, w')) ∧
    (∀ m, ∃ w', setMode B m w = (.ok (), w')) ∧ (∀ t, ∃ w', setRetryTimeout B t w = (.ok (), w')) ∧
    (∃ a w', currentRetryTimeout B w = (.ok a, w')) ∧ (∀ k, ∃ w', setRetryCount B k w = (.ok (), w')) ∧
    (∃ a w', currentRetryCount B w = (.ok a, w')) := by
  have h1 := sure_udpOpen hB
  have h2 := sure_setDestination hB
  have h3 := sure_setPort hB
  have unit : ∀ {σ ε : Type} {m : M σ ε Unit}, Sure m → ∀ s, ∃ s', m s = (.ok (), s') := fun h s => by
    obtain ⟨a, s', e⟩ := h.run s
    exact ⟨s', e⟩
  refine ⟨fun u d port => unit ?_ _, fun u d r => unit ?_ _, fun u d port => unit ?_ _, fun u d h => unit ?_ _,
    fun t d h => unit ?_ _, fun d h => ?_, (sure_readIp hB _).run w, (sure_readIp hB _).run w, (sure_mac hB).run w,
    (sure_readIp hB _).run w, ?_, (Sure.read1 hB _ _).run w, fun m => unit (.write hB _ _ _) w,
    fun t => unit (.write hB _ _ _) w, (sure_retryTimeout hB).run w, fun k => unit (.write hB _ _ _) w,
    (Sure.read1 hB _ _).run w⟩
  · exact .onSockBus (.bind (h3 _) fun _ => .bind .get fun _ => .mapErr (.onSnd (h1 _)))
  · exact .onSockBus (.bind .get fun _ => .bind (.mapErr (.onSnd (h1 _))) fun _ => h2 _)
  · exact .onSockBus (h3 _)
  · unfold Device.udpClose UdpSocket.socketClose Socket.setMode Socket.command
    exact .bind (.onBus (by sure)) fun _ => sure_release _ h
  · unfold Device.tcpClose TcpSocket.socketClose Socket.setMode Socket.command
    exact .bind (.onBus (by sure)) fun _ => sure_release _ h
  · unfold Device.reset resetChip
    obtain ⟨d', e⟩ := unit (Sure.mapErr (f := ResetError.other) (.onBus (H := H) (Sure.write hB COMMON common.MODE [0x80]))) d
    refine ⟨d', (M.bind_ok (rfl : M.get d = (.ok d, d))).trans ?_⟩
    rw [show d.state.anyAllocated = false from decide_eq_false (fun hne => hne h)]
    exact e
  · exact (Sure.bind (Sure.read1 hB _ _) fun _ => .pure _).run w

/-- C76, initialisation: on a bus whose transfers do not fail, `initialize`, `initialize_manual` and `initialize_advanced`
return `Ok` if version 4 is read (or the version is not asserted), and `initialize_macraw` always does. -/
theorem C76_init (B : Bus W E) (hB : Healthy B) (av : Bool) (w : W)
    (hv : av = true → ∀ x w', B.readFrame w 0 0x39 [0] = (.ok (), [x], w') → x = 4) (mac : Mac) (ip gateway subnet : Ipv4)
    (mode : Mode) :
    (∃ st w', Uninit.initialize av B mac mode w = (.ok st, w')) ∧
    (∃ st w', Uninit.initializeManual av B mac ip mode w = (.ok st, w')) ∧
    (∃ st w', Uninit.initializeAdvanced av B mac ip gateway subnet mode w = (.ok st, w')) ∧
    (∃ r w', Uninit.initializeMacraw B mac w = (.ok r, w')) := by
  refine ⟨init_ok hB (.pure _) av _ mode w hv, init_ok hB (sure_manualRefresh hB) av _ mode w hv,
    init_ok hB (sure_manualRefresh hB) av _ mode w hv, ?_⟩
  have h := sure_rawNew hB
  exact (Sure.bind (.mapErr (.write hB _ _ _)) fun _ => .bind (.mapErr (.write hB _ _ _)) fun _ => h).run w

/-! ## Such chips exist -/

theorem emit_status {p : U8 → Prop} : StatusIn emitSched 0 p := fun k x h => by simp [emitSched] at h
theorem emit_lossless : Lossless emitSched 0 := fun k => by simp [emitSched]
theorem emit_emitting : Emitting emitSched 0 := fun k => ⟨k, Nat.le_refl _, true, List.mem_cons_self⟩

/-- C76: from power-up, `connect`, then any datagrams. -/
example (xs : List (List U8)) := C76_udp_session (n := 0) (by decide) (fun _ => rfl) emit_status emit_emitting emit_lossless demoUdp
  demoDevice (UdpCalls.new _ powerUp_sizes : UdpCalls emitSched noFaults 0 _ _) (by decide) (by decide) addrA xs

/-- C76: two datagrams, sent to A and to B. -/
example : ∃ d1 d2 : Device Chip Unit,
    Succeeds (fun fuel => Device.udpSend (Chip.dev emitSched noFaults).bus fuel (udpConnected noFaults).1 [1, 2])
      (udpConnected noFaults).2 () d1 ∧
    Succeeds (fun fuel => Device.udpSendTo (Chip.dev emitSched noFaults).bus fuel (.v4 addrB) [3]) ((udpConnected noFaults).1, d1) ()
      ({ (udpConnected noFaults).1 with destination := some addrB }, d2) := by
  obtain ⟨d1, h1, _, h2, h3⟩ := C76_udp_send (n := 0) (by decide) (fun _ => rfl) emit_status emit_emitting emit_lossless demo_opened .start
    (d := (udpConnected noFaults).2) (by decide +kernel) ⟨by decide +kernel, by decide +kernel⟩ addrA (by decide +kernel) [1, 2]
  have ⟨_, N, hN⟩ := h1
  obtain ⟨d2, h4, _⟩ := C76_udp_send_to (n := 0) (by decide) (fun _ => rfl) emit_status emit_emitting emit_lossless demo_opened
    (.send N [1, 2] addrA .start (hN N (Nat.le_refl _)) (by decide +kernel)) h2 h3 addrB [3]
  exact ⟨d1, d2, h1, h4⟩

/-- Some time later: a register has been read meanwhile. -/
def later (sched : Nat → List (Nat × Act)) (c : Chip) : Chip :=
  ((Chip.dev sched (noFaults : Nat → Option (Unit × Nat))).bus.readFrame c 0 0x39 [0, 0]).2.2

theorem later_udp {u0 u : UdpSocket} {c0 c : Chip} {log : List UdpSent} {got : List UdpGot}
    (h : UdpRun sched noFaults 0 u0 c0 log got u c) : UdpRun sched noFaults 0 u0 c0 log got u (later sched c) := .read _ _ _ h

theorem later_tcp {c0 c : Chip} {acc del : List U8} (h : TcpRun sched noFaults 0 c0 acc del c) :
    TcpRun sched noFaults 0 c0 acc del (later sched c) := .read _ _ _ h

theorem later_raw {r : RawDevice} {c0 c : Chip} {log : List RawSent} {got : List RawGot}
    (h : RawRun sched noFaults r c0 log got c) : RawRun sched noFaults r c0 log got (later sched c) := .read _ _ _ h

/-- Bound to a port; then two datagrams have arrived. -/
def arrived : Device Chip Unit :=
  ⟨later (arriveSched [dgramA, dgramB]) (arriveBound [dgramA, dgramB]).2.bus, DeviceState.new ()⟩

/-- C76: two datagrams are waiting; the buffer has four bytes. -/
example : ∃ k a buf' d', Succeeds (fun fuel => Device.udpReceive (Chip.dev (arriveSched [dgramA, dgramB]) noFaults).bus fuel
      (arriveBound [dgramA, dgramB]).1) ([0, 0, 0, 0], arrived) (k, .v4 a) (buf', d') ∧
    wire a = ([10, 0, 0, 1], [0, 53]) ∧ buf'.take 2 = [7, 8] := by
  have ho : UdpOpened (arriveSched [dgramA, dgramB]) noFaults 0 (arriveBound [dgramA, dgramB]).1
      (arriveBound [dgramA, dgramB]).2.bus :=
    .bind (H := Unit) (u := demoUdp) (d := demoDevice) 5000 (.new _ powerUp_sizes) (run_eq (by decide +kernel))
  have hr := later_udp (UdpRun.start (u0 := (arriveBound [dgramA, dgramB]).1) (c0 := (arriveBound [dgramA, dgramB]).2.bus)
    (sched := arriveSched [dgramA, dgramB]))
  obtain ⟨k, a, buf', d', h1, h2, h3, _⟩ := C76_udp_receive (n := 0) (faults := noFaults) (by decide) (fun _ => rfl)
    (sched := arriveSched [dgramA, dgramB]) (fun k x h => by unfold arriveSched at h; split at h <;> simp at h)
    ho (by rw [arrived]; exact hr) (d := arrived) (by decide +kernel) dgramA [dgramB]
    ⟨by simp [Dgram.Wf, dgramA, dgramB], by decide +kernel⟩ (by decide +kernel) [0, 0, 0, 0] nofun (by decide)
  exact ⟨k, a, buf', d', h1, h2, h3⟩

/-- C76: `connect` on the slow chip, from power-up. -/
example : ∃ d', Succeeds (fun fuel => Device.tcpConnect (Chip.dev slowSched noFaults).bus fuel ⟨Socket.new (BitVec.ofNat 8 0)⟩
    (.v4 addrA)) demoDevice () d' :=
  C76_tcp_connect (by decide) (fun _ => rfl) (fun k x h => by
    unfold slowSched at h
    repeat' split at h
    all_goals simp at h
    all_goals (subst h; decide)) slow_answering addrA _

theorem demo_status : StatusIn demoSched 0 (· = 0x17) := fun k x h => by
  unfold demoSched at h
  repeat' split at h
  all_goals simp at h
  all_goals exact h

/-- Connected; then bytes have arrived. -/
def demoArrived : Device Chip Unit := ⟨later demoSched demoConnected.bus, DeviceState.new ()⟩

/-- C76: a TCP send accepts all three bytes; a receive then returns two of the three bytes that have arrived. -/
example : ∃ (d' : Device Chip Unit) (buf' : List U8) (d'' : Device Chip Unit),
    Succeeds (fun fuel => Device.tcpSend (Chip.dev demoSched noFaults).bus fuel ⟨Socket.new (BitVec.ofNat 8 0)⟩ [7, 8, 9]) demoConnected
      3 d' ∧
    Succeeds (fun fuel => Device.tcpReceive (Chip.dev demoSched noFaults).bus fuel ⟨Socket.new (BitVec.ofNat 8 0)⟩) ([0, 0], demoArrived)
      2 (buf', d'') := by
  have hc : Device.tcpConnect (Chip.dev demoSched noFaults).bus 100 demoSocket demoRemote demoDevice =
      (.ok (), demoConnected) := by
    rw [demoConnected]
    exact run_eq (by decide +kernel)
  obtain ⟨k, d', h1, _, _, h2, _⟩ := C76_tcp_send (n := 0) (faults := noFaults) (by decide) (fun _ => rfl) demo_status
    (fun k => ⟨k + 16, by omega, 0x10, by decide, by unfold demoSched; rw [if_neg (by omega)]; simp⟩) 100 demoRemote demoDevice
    demoConnected demoConnected powerUp_sizes hc [] [] .start (by decide +kernel) [7, 8, 9]
  have hr := later_tcp (TcpRun.start (sched := demoSched) (c := demoConnected.bus))
  obtain ⟨k', buf', d'', h3, h4, h5, _⟩ := C76_tcp_receive (n := 0) (faults := noFaults) (by decide) (fun _ => rfl) demo_status
    100 demoRemote demoDevice demoConnected demoArrived powerUp_sizes hc [] [] (by rw [demoArrived]; exact hr) (by decide +kernel) [0, 0]
  have hk : k = 3 := (h2 (by decide +kernel)).trans (by decide +kernel)
  have hk' : k' = 2 := Nat.le_antisymm h5 (Nat.le_trans (by decide +kernel) (h4 (by decide +kernel)))
  subst hk hk'
  exact ⟨d', buf', d'', h1, h3⟩

/-- Two frames have arrived. -/
def rawArrived : Chip := later frameSched (rawChip noFaults)

/-- C76: a frame is sent, and the first waiting frame is read. -/
example : (∃ c', Succeeds (fun fuel => rawDemo.writeFrame (Chip.dev frameSched noFaults).bus fuel [1, 2, 3]) (rawChip noFaults) 3 c') ∧
    ∃ k buf' c', Succeeds (fun fuel => rawDemo.readFrame (Chip.dev frameSched noFaults).bus fuel) ([0, 0, 0, 0, 0], rawArrived)
      k (buf', c') ∧ RawGot.Brings ⟨[0, 0, 0, 0, 0], k, buf'⟩ [1, 2, 3, 4] := by
  obtain ⟨c', h1, _⟩ := C76_raw_write (sched := frameSched) (faults := noFaults) (fun _ => rfl) (fun k => ⟨k, Nat.le_refl _, true, by unfold frameSched; split <;> simp⟩)
    (fun k => ⟨k, Nat.le_refl _, 0x10, by decide, by unfold frameSched; split <;> simp⟩)
    (fun k => by unfold frameSched; split <;> simp) rawDemo_opened .start [1, 2, 3] (by simp) (by simp)
  obtain ⟨k, buf', c'', h2, h3⟩ := C76_raw_read (sched := frameSched) (faults := noFaults) (fun _ => rfl) rawDemo_opened
    (later_raw .start) [[1, 2, 3, 4], [5, 6]]
    ⟨by simp, by decide +kernel⟩ [0, 0, 0, 0, 0]
  exact ⟨⟨c', h1⟩, k, buf', c'', h2, (h3 _ _ rfl).1⟩

/-- C76: initialisation of the chip after power-up. -/
example := C76_init (Chip.dev emitSched noFaults).bus (healthy_chip fun _ => rfl) true Chip.powerUp
  (fun _ x w' h => by
    have h : ((Chip.dev emitSched noFaults).bus.readFrame Chip.powerUp 0 0x39 [0]).2.1 = [x] := by rw [h]
    rw [show ((Chip.dev emitSched noFaults).bus.readFrame Chip.powerUp 0 0x39 [0]).2.1 = [4] by decide +kernel] at h
    injection h with h _
    exact h.symm)

end W5500.Props
