import Verif.Props.Udp
import Verif.Proofs.NoPanic
/-! # UDP on the chip: C36–C42

All statements start from the state right after a successful `bind` or `connect` (`UdpOpened`) and go through an arbitrary
history (`UdpRun`) of calls on the socket, successful or not, of other traffic on the bus, and of events on the chip. -/

namespace W5500.Props
open W5500 W5500.Spec W5500.Spec.Sock socketn
variable {W E H : Type} {sched : Nat → List (Nat × Act)} {faults : Nat → Option (E × Nat)}
  {sched0 : Nat → List (Nat × Act)} {faults0 : Nat → Option (E × Nat)}

/-! ## C36 UDP send transmits exactly the caller's data -/

/-- Facts about `pieces`: nothing is lost, added or reordered; one piece if the data fits. -/
theorem C36_pieces (z : Nat) (hz : z ≠ 0) (data : List U8) :
    (pieces z data).flatten = data ∧ (∀ p ∈ pieces z data, p ≠ [] ∧ p.length ≤ z) ∧
    (data ≠ [] → data.length ≤ z → pieces z data = [data]) := by
  refine ⟨pieces_flatten hz data, ?_, pieces_one⟩
  induction hl : data.length using Nat.strongRecOn generalizing data with
  | _ k ih =>
    by_cases h : data = []
    · subst h; rw [pieces_nil]; nofun
    · have := List.length_pos_iff.mpr h
      rw [pieces_cons hz h]
      intro p hp
      rcases List.mem_cons.mp hp with rfl | hp
      · refine ⟨fun e => ?_, by rw [List.length_take]; omega⟩
        have := congrArg List.length e
        rw [List.length_take, List.length_nil] at this
        omega
      · exact ih _ (by rw [List.length_drop]; omega) _ rfl p hp

/-- C36 over a whole history: the packets that left the chip since the socket was opened are exactly the pieces of the
buffers given to the calls, call by call; a failed call has transmitted some first pieces of its buffer. -/
theorem C36_history {n : Nat} (hn : n < 8) {u0 u : UdpSocket} {c0 c : Chip} {log : List UdpSent} {got : List UdpGot}
    (ho : UdpOpened sched0 faults0 n u0 c0) (hr : UdpRun sched faults n u0 c0 log got u c) :
    ∃ sent, UdpSent.All (c0.socks n).txSize log sent ∧ (c.socks n).packets = (c0.socks n).packets ++ sent := by
  obtain ⟨A, h0⟩ := opened_inv hn ho
  obtain ⟨_, _, sent, ds, h1, _, h2⟩ := udpRun_inv hn h0 hr
  exact ⟨sent, h1, h2.idle.base.out⟩

/-- C36 for one call: `send` returned `Ok`, so during the call exactly the pieces of the buffer were transmitted, to the
socket's destination. `z` is the TX buffer size, which is the free space then. -/
theorem C36_send {n : Nat} (hn : n < 8) {u0 u : UdpSocket} {c0 : Chip} {log : List UdpSent} {got : List UdpGot}
    {d d' : Device Chip H} (ho : UdpOpened sched0 faults0 n u0 c0) (hr : UdpRun sched faults n u0 c0 log got u d.bus)
    (fuel : Nat) (data : List U8) (h : Device.udpSend (Chip.dev sched faults).bus fuel u data d = (.ok (), d')) :
    ∃ dst ps, u.destination = some dst ∧ (d'.bus.socks n).packets = (d.bus.socks n).packets ++ ps ∧
      Carry (wire dst) (pieces (d.bus.socks n).txSize data) ps ∧ (d.bus.socks n).fsr.toNat = (d.bus.socks n).txSize ∧
      (d.bus.socks n).txSize ≠ 0 := by
  obtain ⟨A, h0⟩ := opened_inv hn ho
  obtain ⟨hs, hc, sent, ds, h1, _, h2⟩ := udpRun_inv hn h0 hr
  rcases hd : u.destination with _ | dst
  · have hrun := onBus_run h
    unfold UdpSocket.socketSendAll at hrun
    rw [hd] at hrun
    obtain ⟨_, _, _, h4⟩ := M.bind_eq_ok.mp hrun
    cases h4
  · have := (udp_sendIdle (sched := sched) (faults := faults) hn u hs (wire dst) _ _ _ [] fuel data).run d.bus
      ⟨h2, hc dst hd⟩
    rw [onBus_run h] at this
    obtain ⟨ps, h3, h4⟩ := this
    refine ⟨dst, ps, rfl, ?_, h2.size ▸ h3, ?_, ?_⟩
    · rw [h4.idle.base.out, h2.idle.base.out]
    · exact h2.idle.fsr
    · have : 1024 ≤ (d.bus.socks n).txSize := GoodSize.pos h2.idle.base.size
      omega

/-- C36 for `send_to`. -/
theorem C36_send_to {n : Nat} (hn : n < 8) {u0 u u' : UdpSocket} {c0 : Chip} {log : List UdpSent} {got : List UdpGot}
    {d d' : Device Chip H} (ho : UdpOpened sched0 faults0 n u0 c0) (hr : UdpRun sched faults n u0 c0 log got u d.bus)
    (fuel : Nat) (dst : SockAddr4) (data : List U8)
    (h : Device.udpSendTo (Chip.dev sched faults).bus fuel (.v4 dst) data (u, d) = (.ok (), (u', d'))) :
    ∃ ps, (d'.bus.socks n).packets = (d.bus.socks n).packets ++ ps ∧
      Carry (wire dst) (pieces (d.bus.socks n).txSize data) ps := by
  obtain ⟨A, h0⟩ := opened_inv hn ho
  obtain ⟨hs, hc, sent, ds, h1, _, h2⟩ := udpRun_inv hn h0 hr
  have := (udp_sendTo (sched := sched) (faults := faults) hn u hs fuel data dst (stable_udpIdle _ _ _ [])
    (fun s b x hb h1 h2 h => h.setMem b x (dest_indifferent hb h1 h2)) (fun s h => SentSome.none h)
    (udp_sendIdle hn { u with destination := some dst } hs (wire dst) _ _ _ [] fuel data)).run (u, d.bus) ⟨rfl, h2, hc⟩
  unfold Device.udpSendTo at h
  rw [onSockBus_run h] at this
  obtain ⟨_, ⟨ps, h3, h4⟩, _⟩ := this
  refine ⟨ps, ?_, h2.size ▸ h3⟩
  rw [h4.idle.base.out, h2.idle.base.out]

/-! ## C37 A UDP send is one datagram -/

/-- C37, partial: the number of datagrams of a successful `send`. It is one iff the buffer is not empty and not larger
than the TX buffer. Missing: larger buffers are sent as several datagrams, and an empty one as none, with `Ok` in both
cases. -/
theorem C37_partial {n : Nat} (hn : n < 8) {u0 u : UdpSocket} {c0 : Chip} {log : List UdpSent} {got : List UdpGot}
    {d d' : Device Chip H} (ho : UdpOpened sched0 faults0 n u0 c0) (hr : UdpRun sched faults n u0 c0 log got u d.bus)
    (fuel : Nat) (data : List U8) (h : Device.udpSend (Chip.dev sched faults).bus fuel u data d = (.ok (), d')) :
    ∃ ps, (d'.bus.socks n).packets = (d.bus.socks n).packets ++ ps ∧
      ps.length = (data.length + (d.bus.socks n).txSize - 1) / (d.bus.socks n).txSize ∧
      (ps.length = 1 ↔ 1 ≤ data.length ∧ data.length ≤ (d.bus.socks n).txSize) := by
  obtain ⟨dst, ps, _, h1, h2, _, hz⟩ := C36_send hn ho hr fuel data h
  have hl : ps.length = (data.length + (d.bus.socks n).txSize - 1) / (d.bus.socks n).txSize := by
    rw [← pieces_length hz, ← h2.1, List.length_map]
  refine ⟨ps, h1, hl, ?_⟩
  rw [hl]
  generalize (d.bus.socks n).txSize = z at hz
  generalize data.length = l
  rw [Nat.div_eq_iff (by omega)]
  omega

/-- A chip that transmits committed packets at once and then raises SENDOK. -/
def emitSched (_ : Nat) : List (Nat × Act) := [(0, .emit true), (0, .raise 0x10)]
def demoUdp : UdpSocket := UdpSocket.new (Socket.new (BitVec.ofNat 8 0))
def addrA : SockAddr4 := ⟨⟨10, 0, 0, 1⟩, 53⟩
def addrB : SockAddr4 := ⟨⟨10, 9, 9, 9⟩, 99⟩
/-- Socket 0 connected to A, with transaction failures `faults`. -/
def udpConnected (faults : Nat → Option (Unit × Nat)) : UdpSocket × Device Chip Unit :=
  (Device.udpConnect (Chip.dev emitSched faults).bus (.v4 addrA) (demoUdp, demoDevice)).2

theorem powerUp_sizes : Sock.SizesOk (Chip.powerUp.socks 0).mem := by
  unfold Sock.SizesOk GoodSize
  decide

theorem demo_opened : UdpOpened emitSched noFaults 0 (udpConnected noFaults).1 (udpConnected noFaults).2.bus :=
  .connect (H := Unit) (u := demoUdp) (d := demoDevice) (.v4 addrA) (.new _ powerUp_sizes) (run_eq (by decide +kernel))

/-- C36 and C37 are not vacuous: after `connect`, a send succeeds, and one packet with the data goes to A. -/
example :
    let r := Device.udpSend (Chip.dev emitSched noFaults).bus 9 (udpConnected noFaults).1 [1, 2, 3] (udpConnected noFaults).2
    r.1 = .ok () ∧ (r.2.bus.socks 0).packets = [⟨[10, 0, 0, 1], [0, 53], [1, 2, 3], true⟩] := by
  decide +kernel

/-- ... and `send_to` B. -/
example :
    let r := Device.udpSendTo (Chip.dev emitSched noFaults).bus 9 (.v4 addrB) [1] (udpConnected noFaults)
    r.1 = .ok () ∧ (r.2.2.bus.socks 0).packets = [⟨[10, 9, 9, 9], [0, 99], [1], true⟩] := by
  decide +kernel

/-- C37 is false: an empty datagram is not sent, and `send` returns `Ok`. -/
theorem C37_refuted :
    let r := Device.udpSend (Chip.dev emitSched noFaults).bus 9 (udpConnected noFaults).1 [] (udpConnected noFaults).2
    r.1 = .ok () ∧ (r.2.bus.socks 0).packets = [] := by
  decide +kernel

/-- C37 is false also for every large buffer: if `send` returns `Ok`, there were at least two datagrams. -/
theorem C37_large {n : Nat} (hn : n < 8) {u0 u : UdpSocket} {c0 : Chip} {log : List UdpSent} {got : List UdpGot}
    {d d' : Device Chip H} (ho : UdpOpened sched0 faults0 n u0 c0) (hr : UdpRun sched faults n u0 c0 log got u d.bus)
    (fuel : Nat) (data : List U8) (h : Device.udpSend (Chip.dev sched faults).bus fuel u data d = (.ok (), d'))
    (hl : (d.bus.socks n).txSize < data.length) :
    ∃ p q ps, (d'.bus.socks n).packets = (d.bus.socks n).packets ++ p :: q :: ps := by
  obtain ⟨ps, h1, h2, h3⟩ := C37_partial hn ho hr fuel data h
  match ps, h1, h2, h3 with
  | [], _, h2, _ =>
    exfalso
    have := Nat.div_pos_iff (a := data.length + (d.bus.socks n).txSize - 1) (b := (d.bus.socks n).txSize)
    obtain ⟨_, _, _, _, _, _, hz⟩ := C36_send hn ho hr fuel data h
    rw [List.length_nil] at h2
    omega
  | [p], _, _, h3 => exact absurd (h3.mp rfl).2 (by omega)
  | p :: q :: ps, h1, _, _ => exact ⟨p, q, ps, h1⟩

/-! ## C38 UDP destination cache is coherent with the chip -/

/-- C38, partial: in every history of calls, successful or not, in which no `connect` or `send_to` is interrupted between
the two writes of the destination (`Settled`, see `UdpCalls`). -/
theorem C38_partial {n : Nat} (hn : n < 8) {u : UdpSocket} {c : Chip} (h : UdpCalls sched faults n u c) (a : SockAddr4)
    (hd : u.destination = some a) :
    [(c.socks n).mem 0x0C, (c.socks n).mem 0x0D, (c.socks n).mem 0x0E, (c.socks n).mem 0x0F] = [a.ip.a, a.ip.b, a.ip.c, a.ip.d] ∧
      [(c.socks n).mem 0x10, (c.socks n).mem 0x11] = be a.port.toNat :=
  Prod.mk.inj ((udpCalls_object hn h).coherent a hd)

theorem writeAll_outcome {C : Type} (D : ByteDev C E) (l : List Wr) (w w' : C) (r : Res E Unit)
    (h : writeAll D.bus l w = (r, w')) : r = .ok () ∨ ∃ e, r = .err e := by
  induction l generalizing w with
  | nil => cases h; exact .inl rfl
  | cons x l ih =>
    have hw : ∀ w1 r1, D.bus.write x.1 x.2.1 x.2.2 w = (r1, w1) → r1 = .ok () ∨ ∃ e, r1 = .err e := by
      intro w1 r1 h1
      rw [Bus.write_apply] at h1
      unfold ByteDev.bus at h1
      dsimp only at h1
      split at h1 <;> cases h1
      · exact .inl rfl
      · exact .inr ⟨_, rfl⟩
    unfold writeAll at h
    rw [M.bind_def] at h
    rcases h1 : D.bus.write x.1 x.2.1 x.2.2 w with ⟨r1, w1⟩
    rw [h1] at h
    rcases hw _ _ h1 with rfl | ⟨e, rfl⟩
    · exact ih _ h
    · cases h; exact .inr ⟨e, rfl⟩

/-- C38: a `connect` that does not end with a bus error is not such an interrupted one. -/
theorem C38_settled_connect {n : Nat} {u u' : UdpSocket} {d d' : Device Chip H} (remote : SockAddr)
    (r : Res (UdpSocketError E) Unit)
    (h : Device.udpConnect (Chip.dev sched faults).bus remote (u, d) = (r, (u', d'))) (hr : ∀ e, r ≠ .err (.other e)) :
    Settled n remote u' d.bus d'.bus := by
  rintro a rfl
  left
  rw [C31_connect_script] at h
  obtain ⟨h1, h2, _⟩ := Prod.mk.inj h |>.imp_right Prod.mk.inj
  rcases hw : writeAll (Chip.dev sched faults).bus _ d.bus with ⟨r1, w1⟩
  rcases writeAll_outcome _ _ _ _ _ hw with rfl | ⟨e, rfl⟩
  · have hw' := M.mapErr_ok (f := UdpSocketError.other) hw
    rw [hw'] at h2
    rw [← h2]
    rfl
  · have hw' := M.mapErr_err (f := UdpSocketError.other) hw
    rw [hw'] at h1
    exact absurd h1.symm (hr e)

/-- C38: the same for `send_to`. -/
theorem C38_settled_send_to {n : Nat} {u u' : UdpSocket} {d d' : Device Chip H} (fuel : Nat) (remote : SockAddr)
    (data : List U8) (r : Res (NbError (UdpSocketError E)) Unit)
    (h : Device.udpSendTo (Chip.dev sched faults).bus fuel remote data (u, d) = (r, (u', d')))
    (hr : ∀ e, r ≠ .err (.other (.other e))) : Settled n remote u' d.bus d'.bus := by
  rintro a rfl
  left
  rcases hw : writeAll (Chip.dev sched faults).bus (destScript u a) d.bus with ⟨r1, w1⟩
  rcases writeAll_outcome _ _ _ _ _ hw with rfl | ⟨e, rfl⟩
  · rw [C35_send_to _ _ _ _ _ _ _ hw] at h
    rw [← (Prod.mk.inj (Prod.mk.inj h).2).1]
  · exfalso
    unfold Device.udpSendTo Device.onSockBus M.zoom UdpSocket.socketSendTo at h
    dsimp only at h
    have hs : UdpSocket.setDestination (Chip.dev sched faults).bus a (u, d.bus) =
        (.err (.other e), (u, w1)) := by
      rw [setDestination_eq]
      dsimp only
      rw [show M.mapErr UdpSocketError.other (writeAll _ (destScript u a)) d.bus = _ from M.mapErr_err hw]
      rfl
    rw [M.bind_err (M.mapErr_err hs)] at h
    exact hr e (Prod.mk.inj h).1.symm

/-- C38 is false: `send_to` B fails after writing the address and before writing the port. The socket still remembers A, so the
next `send_to` A does not write the destination, returns `Ok`, and its data goes to B's address and A's port. -/
theorem C38_refuted :
    let B := (Chip.dev emitSched (faultAt 9)).bus
    let r1 := Device.udpSendTo B 9 (.v4 addrB) [1] (udpConnected (faultAt 9))
    let r2 := Device.udpSendTo B 9 (.v4 addrA) [5] r1.2
    r1.1 = .err (.other (.other ())) ∧ r1.2.1.destination = some addrA ∧
      (r1.2.2.bus.socks 0).dest = ([10, 9, 9, 9], [0, 53]) ∧ r2.1 = .ok () ∧
      (r2.2.2.bus.socks 0).packets = [⟨[10, 9, 9, 9], [0, 53], [5], true⟩] := by
  decide +kernel

/-- C38_partial covers failed calls: here `send_to` B fails while writing the address, and nothing has changed. -/
example : ∃ u c, UdpCalls emitSched (faultAt 8) 0 u c ∧ u.destination = some addrA ∧
    (c.socks 0).dest = ([10, 0, 0, 1], [0, 53]) := by
  refine ⟨_, _, .sendTo (H := Unit) (u := (udpConnected (faultAt 8)).1) (d := (udpConnected (faultAt 8)).2) 9 (.v4 addrB) [1]
    (.err (.other (.other ()))) (.connect (H := Unit) (u := demoUdp) (d := demoDevice) (.v4 addrA) (.ok ())
      (.new _ powerUp_sizes) (run_eq (by decide +kernel)) (fun a ha => ?_)) (run_eq (by decide +kernel)) (fun a ha => ?_), ?_, ?_⟩
  · cases ha; left; decide +kernel
  · cases ha; right; decide +kernel
  · decide +kernel
  · decide +kernel

/-! ## C39–C42 UDP receive -/

/-- The facts about a successful `receive` behind C39, C40 and C42. `qs`: the datagrams queued when it is called; `more`:
the ones that arrived before it read the received size. -/
theorem received {n : Nat} (hn : n < 8) {u0 u : UdpSocket} {c0 : Chip} {log : List UdpSent} {got : List UdpGot}
    {d d' : Device Chip H} (ho : UdpOpened sched0 faults0 n u0 c0) (hr : UdpRun sched faults n u0 c0 log got u d.bus)
    (fuel : Nat) (buf buf' : List U8) (k : Nat) (origin : SockAddr)
    (h : Device.udpReceive (Chip.dev sched faults).bus fuel u (buf, d) = (.ok (k, origin), (buf', d'))) (qs : List Dgram)
    (hq : Queued qs (d.bus.socks n)) :
    ∃ hdr dg rest more, dg :: rest = qs ++ more ∧ UdpDelivered dg (dg :: rest) buf buf' k hdr ∧ origin = .v4 hdr.origin ∧
      (d'.bus.socks n).arrived = (d.bus.socks n).arrived ++ encAll more ++ (d'.bus.socks n).queue := by
  obtain ⟨A, h0⟩ := opened_inv hn ho
  obtain ⟨hs, _, sent, ds, _, _, hi⟩ := udpRun_inv hn h0 hr
  have hi : UdpIdle ((c0.socks n).packets ++ sent) (A ++ encAll ds) (c0.socks n).txSize qs (d.bus.socks n) :=
    ⟨hi.idle, hi.size, [], by rw [List.append_nil]; exact hq⟩
  have := (udp_receiveFrom (sched := sched) (faults := faults) hn u hs _ _ _ qs _ fuel buf).run (buf, d.bus)
    ⟨rfl, hi, rfl⟩
  rw [onSockBus_run h] at this
  obtain ⟨hdr, dg, rest, more, h1, h2, h3, h4⟩ := this
  refine ⟨hdr, dg, rest, more, h1, h2, h3, ?_⟩
  have e1 := hi.idle.rx.core.arrived
  have e2 := h4.idle.rx.core.arrived
  rw [e1, e2, hq.2, h1, encAll_append]
  simp only [List.append_assoc]

/-- The RX buffer always holds whole datagrams. -/
theorem queued_always {n : Nat} (hn : n < 8) {u0 u : UdpSocket} {c0 c : Chip} {log : List UdpSent} {got : List UdpGot}
    (ho : UdpOpened sched0 faults0 n u0 c0) (hr : UdpRun sched faults n u0 c0 log got u c) : ∃ qs, Queued qs (c.socks n) := by
  obtain ⟨A, h0⟩ := opened_inv hn ho
  obtain ⟨_, _, _, _, _, _, h⟩ := udpRun_inv hn h0 hr
  exact h.queue

theorem encode_inj {a b : Dgram} (ha : a.Wf) (hb : b.Wf) {s t : List U8} (h : a.encode ++ s = b.encode ++ t) :
    a = b ∧ s = t := by
  obtain ⟨i, p, l⟩ := a
  obtain ⟨i', p', l'⟩ := b
  obtain ⟨h1, h2, h3⟩ := ha
  obtain ⟨h1', h2', h3'⟩ := hb
  dsimp only at h1 h2 h3 h1' h2' h3'
  simp only [Dgram.encode, List.append_assoc] at h
  obtain ⟨rfl, g⟩ := List.append_inj h (h1.trans h1'.symm)
  obtain ⟨rfl, f⟩ := List.append_inj g (h2.trans h2'.symm)
  obtain ⟨e, k⟩ := List.append_inj f rfl
  have : l.length = l'.length := by
    unfold be at e
    simp only [List.cons.injEq, and_true] at e
    have e1 := congrArg BitVec.toNat e.1
    have e2 := congrArg BitVec.toNat e.2
    simp only [BitVec.toNat_ofNat] at e1 e2
    omega
  obtain ⟨rfl, j⟩ := List.append_inj k this
  exact ⟨rfl, j⟩

/-- Datagrams in RX memory can be told apart in one way only. -/
theorem encAll_inj {ds es : List Dgram} (hd : ∀ d ∈ ds, d.Wf) (he : ∀ d ∈ es, d.Wf) (h : encAll ds = encAll es) : ds = es := by
  induction ds generalizing es with
  | nil =>
    cases es with
    | nil => rfl
    | cons e es => exact absurd (congrArg List.length h.symm) (encAll_ne (he e (List.mem_cons_self ..)) es)
  | cons d ds ih =>
    cases es with
    | nil => exact absurd (congrArg List.length h) (encAll_ne (hd d (List.mem_cons_self ..)) ds)
    | cons e es =>
      rw [encAll_cons, encAll_cons] at h
      obtain ⟨rfl, h'⟩ := encode_inj (hd d (List.mem_cons_self ..)) (he e (List.mem_cons_self ..)) h
      rw [ih (fun d hh => hd d (List.mem_cons_of_mem _ hh)) (fun d hh => he d (List.mem_cons_of_mem _ hh)) h']

/-- ... and in only one way. -/
theorem queued_unique {s : Sock} {a b : List Dgram} (ha : Queued a s) (hb : Queued b s) : a = b := by
  obtain ⟨wa, qa⟩ := ha
  obtain ⟨wb, qb⟩ := hb
  rw [qa] at qb
  clear qa
  induction a generalizing b with
  | nil =>
    cases b with
    | nil => rfl
    | cons y b =>
      exact absurd (congrArg List.length qb).symm (encAll_ne (wb y List.mem_cons_self) b)
  | cons x a ih =>
    cases b with
    | nil =>
      exact absurd (congrArg List.length qb) (encAll_ne (wa x List.mem_cons_self) a)
    | cons y b =>
      rw [encAll_cons, encAll_cons] at qb
      obtain ⟨rfl, h⟩ := encode_inj (wa x List.mem_cons_self) (wb y List.mem_cons_self) qb
      rw [ih (fun z hz => wa z (List.mem_cons_of_mem _ hz)) (fun z hz => wb z (List.mem_cons_of_mem _ hz)) h]

/-- C39: the queue when `receive` is called is a list of datagrams `qs`. On `Ok`, the origin is the source of the oldest
datagram (of `qs`; if there was none, of `more`, which came during the call), and its payload is at the beginning of the
buffer, all of it. Bytes of the buffer after the first `k` are as before. -/
theorem C39 {n : Nat} (hn : n < 8) {u0 u : UdpSocket} {c0 : Chip} {log : List UdpSent} {got : List UdpGot}
    {d d' : Device Chip H} (ho : UdpOpened sched0 faults0 n u0 c0) (hr : UdpRun sched faults n u0 c0 log got u d.bus)
    (fuel : Nat) (buf buf' : List U8) (k : Nat) (origin : SockAddr)
    (h : Device.udpReceive (Chip.dev sched faults).bus fuel u (buf, d) = (.ok (k, origin), (buf', d'))) :
    ∃ qs dg rest more, Queued qs (d.bus.socks n) ∧ dg :: rest = qs ++ more ∧
      (∃ a, origin = .v4 a ∧ wire a = (dg.ip, dg.port)) ∧ dg.payload.length ≤ k ∧
      buf'.take dg.payload.length = dg.payload ∧ buf'.drop k = buf.drop k ∧ buf'.length = buf.length := by
  obtain ⟨qs, hq⟩ := queued_always hn ho hr
  obtain ⟨hdr, dg, rest, more, h1, h2, h3, _⟩ := received hn ho hr fuel buf buf' k origin h qs hq
  refine ⟨qs, dg, rest, more, hq, h1, ⟨_, h3, h2.origin⟩, ?_, h2.payload, h2.rest, h2.keeps⟩
  have := h2.count
  have := h2.fits
  have : (encAll (dg :: rest)).length = _ := congrArg List.length (encAll_cons dg rest)
  rw [List.length_append, encode_length (h2.wf dg List.mem_cons_self)] at this
  omega

/-- C40, partial: what the returned length is: the size of all queued datagrams with their headers, or the buffer length if
that is less. It is the payload length iff the buffer is exactly as long as the payload. -/
theorem C40_partial {n : Nat} (hn : n < 8) {u0 u : UdpSocket} {c0 : Chip} {log : List UdpSent} {got : List UdpGot}
    {d d' : Device Chip H} (ho : UdpOpened sched0 faults0 n u0 c0) (hr : UdpRun sched faults n u0 c0 log got u d.bus)
    (fuel : Nat) (buf buf' : List U8) (k : Nat) (origin : SockAddr)
    (h : Device.udpReceive (Chip.dev sched faults).bus fuel u (buf, d) = (.ok (k, origin), (buf', d'))) :
    ∃ qs dg rest more, Queued qs (d.bus.socks n) ∧ dg :: rest = qs ++ more ∧
      k = min buf.length ((dg :: rest).map fun x => 8 + x.payload.length).sum ∧
      (k = dg.payload.length ↔ buf.length = dg.payload.length) := by
  obtain ⟨qs, hq⟩ := queued_always hn ho hr
  obtain ⟨hdr, dg, rest, more, h1, h2, h3, _⟩ := received hn ho hr fuel buf buf' k origin h qs hq
  have he : ∀ l : List Dgram, (∀ x ∈ l, x.Wf) → (encAll l).length = (l.map fun x => 8 + x.payload.length).sum := by
    intro l hl
    induction l with
    | nil => rfl
    | cons x l ih =>
      rw [encAll_cons, List.length_append, encode_length (hl x List.mem_cons_self),
        ih fun y hy => hl y (List.mem_cons_of_mem _ hy), List.map_cons, List.sum_cons]
      omega
  have hk := h2.count
  rw [he _ h2.wf] at hk
  refine ⟨qs, dg, rest, more, hq, h1, hk, ?_⟩
  have := h2.fits
  rw [List.map_cons, List.sum_cons] at hk
  omega

/-- A schedule with `ds` arriving at time 9, and socket 0 bound then. -/
def arriveSched (ds : List Dgram) (k : Nat) : List (Nat × Act) := if k = 9 then ds.map fun d => (0, .datagram d) else []
def arriveBound (ds : List Dgram) : UdpSocket × Device Chip Unit :=
  (Device.udpBind (Chip.dev (arriveSched ds) noFaults).bus 5000 (demoUdp, demoDevice)).2
def dgramA : Dgram := ⟨[10, 0, 0, 1], [0, 53], [7, 8]⟩
def dgramB : Dgram := ⟨[10, 0, 0, 2], [0, 54], [9]⟩

/-- C39 and C40_partial are not vacuous. -/
example : UdpOpened (arriveSched [dgramA, dgramB]) noFaults 0 (arriveBound [dgramA, dgramB]).1 (arriveBound [dgramA, dgramB]).2.bus :=
  .bind (H := Unit) (u := demoUdp) (d := demoDevice) 5000 (.new _ powerUp_sizes) (run_eq (by decide +kernel))

/-- C40 is false: a datagram of two bytes is received into a buffer of three bytes; `receive` returns 3. -/
theorem C40_refuted :
    let r := Device.udpReceive (Chip.dev (arriveSched [dgramA]) noFaults).bus 9 (arriveBound [dgramA]).1 ([0, 0, 0], (arriveBound [dgramA]).2)
    r.1 = .ok (3, .v4 ⟨⟨10, 0, 0, 1⟩, 53⟩) ∧ r.2.1 = [7, 8, 0] := by
  decide +kernel

theorem head_len {B : Bus W E} {fuel bl : Nat} {u : UdpSocket} {w w' : W} {x : Nat × U16 × UdpHeader}
    (h : recvHead B fuel u bl w = (.ok x, w')) :
    ∃ w1 h0 h1 h2 h3 h4 h5 h6 h7, B.readFrame w1 u.socket.rxBuffer x.2.1 [0, 0, 0, 0, 0, 0, 0, 0] =
      (.ok (), [h0, h1, h2, h3, h4, h5, h6, h7], w') ∧ x.2.2.len = h6.toNat * 256 + h7.toNat ∧ bl ≠ 0 := by
  unfold recvHead at h
  obtain ⟨_, _, _, h⟩ := M.bind_eq_ok.mp h
  obtain ⟨b, _, _, h⟩ := M.bind_eq_ok.mp h
  split at h
  · cases h
  obtain ⟨_, _, _, h⟩ := M.bind_eq_ok.mp h
  split at h
  · cases h
  split at h
  · cases h
  rename_i hbl
  obtain ⟨p, w1, _, h⟩ := M.bind_eq_ok.mp h
  obtain ⟨hd, w2, hh, h⟩ := M.bind_eq_ok.mp h
  have hh := M.mapErr_eq_ok.mp hh
  unfold Bus.readBuf at hh
  rcases hf : B.readFrame w1 u.socket.rxBuffer p [0, 0, 0, 0, 0, 0, 0, 0] with ⟨r, bs, w3⟩
  rw [hf] at hh
  cases r <;> cases hh
  match hd, h, hf with
  | [h0, h1, h2, h3, h4, h5, h6, h7], h, hf =>
    cases h
    exact ⟨w1, h0, h1, h2, h3, h4, h5, h6, h7, hf, fromBeBytes_toNat h6 h7, hbl⟩
  | [], h, _ | [_], h, _ | [_, _], h, _ | [_, _, _], h, _ | [_, _, _, _], h, _ | [_, _, _, _, _], h, _
  | [_, _, _, _, _, _], h, _ | [_, _, _, _, _, _, _], h, _ => cases h
  | _ :: _ :: _ :: _ :: _ :: _ :: _ :: _ :: _ :: _, h, _ => cases h

theorem receive_panic {B : Bus W E} (hB : Calm B) {fuel : Nat} {u : UdpSocket} {buf : List U8} {d : Device W H}
    {s : List U8 × Device W H} :
    Device.udpReceive B fuel u (buf, d) = (.panic, s) ↔ ∃ x w, recvHead B fuel u buf.length d.bus = (.ok x, w) ∧
      buf.length < x.2.2.len ∧ s = (buf, { d with bus := w }) := by
  rw [udpReceive_run]
  have hp := np_recvHead hB u fuel buf.length
  rcases hh : recvHead B fuel u buf.length d.bus with ⟨x | e | _ | _, w⟩
  · have := recvTail_panic hB u (buf, w) x.1 x.2.1 x.2.2
    dsimp only at this ⊢
    by_cases hl : buf.length < x.2.2.len
    · have ht : recvTail B u buf.length x.1 x.2.1 x.2.2 (buf, w) = (.panic, (buf, w)) := by
        unfold recvTail
        rw [M.bind_def]
        unfold M.withPrefix
        rw [if_neg (by dsimp only; omega)]
      rw [ht]
      constructor
      · intro h; cases h; exact ⟨x, w, rfl, hl, rfl⟩
      · rintro ⟨_, _, h, _, rfl⟩; cases h; rfl
    · rcases ht : recvTail B u buf.length x.1 x.2.1 x.2.2 (buf, w) with ⟨⟨k, h⟩ | _ | _ | _, b, w'⟩
      · exact ⟨nofun, fun ⟨_, _, h, h', _⟩ => by cases h; exact absurd h' hl⟩
      · exact ⟨nofun, fun ⟨_, _, h, h', _⟩ => by cases h; exact absurd h' hl⟩
      · rw [ht] at this; exact absurd (this.mp rfl) hl
      · exact ⟨nofun, fun ⟨_, _, h, h', _⟩ => by cases h; exact absurd h' hl⟩
  · exact ⟨nofun, fun ⟨_, _, h, _⟩ => by cases h⟩
  · exact absurd (congrArg Prod.fst hh) (hp.run _)
  · exact ⟨nofun, fun ⟨_, _, h, _⟩ => by cases h⟩

/-- C41, partial, on any bus whose transfers do not panic: the only panic is the one for a header announcing more bytes
than the buffer has. Up to there nothing was written and nothing was stored. -/
theorem C41_panic_partial (B : Bus W E) (hB : Calm B) (fuel : Nat) (u : UdpSocket) (buf buf' : List U8) (d d' : Device W H)
    (h : Device.udpReceive B fuel u (buf, d) = (.panic, (buf', d'))) :
    buf' = buf ∧ ReadsOnly B d.bus d'.bus ∧ ∃ w p h0 h1 h2 h3 h4 h5 h6 h7,
      B.readFrame w u.socket.rxBuffer p [0, 0, 0, 0, 0, 0, 0, 0] = (.ok (), [h0, h1, h2, h3, h4, h5, h6, h7], d'.bus) ∧
      0 < buf.length ∧ buf.length < h6.toNat * 256 + h7.toNat := by
  obtain ⟨x, w, h1, h2, h3⟩ := (receive_panic hB).mp h
  cases h3
  have hm := (moves_recvHead B fuel buf.length u).run d.bus
  rw [h1] at hm
  obtain ⟨w1, a0, a1, a2, a3, a4, a5, a6, a7, e1, e2, e3⟩ := head_len h1
  exact ⟨rfl, hm, w1, x.2.1, a0, a1, a2, a3, a4, a5, a6, a7, e1, Nat.pos_of_ne_zero e3, e2 ▸ h2⟩

theorem calm_bus {C : Type} (D : ByteDev C E) : Calm D.bus := by
  constructor
  · intro w b a d
    unfold ByteDev.bus
    dsimp only
    split <;> nofun
  · intro w b a d
    unfold ByteDev.bus
    dsimp only
    split <;> nofun

/-- C41 on the chip: a panic means that the oldest datagram is larger than the buffer; that datagram stays at the head of the
queue, so with such a buffer `receive` never returns `Ok` again. -/
theorem C41_chip_partial {n : Nat} (hn : n < 8) {u0 u : UdpSocket} {c0 : Chip} {log : List UdpSent} {got : List UdpGot}
    {d d' : Device Chip H} (ho : UdpOpened sched0 faults0 n u0 c0) (hr : UdpRun sched faults n u0 c0 log got u d.bus)
    (fuel : Nat) (buf buf' : List U8) (r : Res (NbError (UdpSocketError E)) (Nat × SockAddr))
    (h : Device.udpReceive (Chip.dev sched faults).bus fuel u (buf, d) = (r, (buf', d'))) (qs : List Dgram)
    (hq : Queued qs (d.bus.socks n)) :
    (r = .panic → ∃ dg rest more, dg :: rest = qs ++ more ∧ 0 < buf.length ∧ buf.length < dg.payload.length ∧
      ∃ later, Queued (dg :: rest ++ later) (d'.bus.socks n)) ∧
    (∀ x, r = .ok x → ∃ dg rest more, dg :: rest = qs ++ more ∧ dg.payload.length ≤ buf.length) := by
  constructor
  · rintro rfl
    obtain ⟨A, h0⟩ := opened_inv hn ho
    obtain ⟨hs, _, sent, ds, _, _, hi⟩ := udpRun_inv hn h0 hr
    have hi : UdpIdle ((c0.socks n).packets ++ sent) (A ++ encAll ds) (c0.socks n).txSize qs (d.bus.socks n) :=
      ⟨hi.idle, hi.size, [], by rw [List.append_nil]; exact hq⟩
    obtain ⟨x, w, h1, h2, h3⟩ := (receive_panic (calm_bus _)).mp h
    cases h3
    have := (udp_recvHead (sched := sched) (faults := faults) hn u hs _ _ _ qs _ fuel buf.length).run d.bus ⟨hi, rfl⟩
    rw [h1] at this
    obtain ⟨dg, rest, more, e1, _, _, _, _, e2, e3⟩ := this
    obtain ⟨_, _, _, _, _, _, _, _, _, _, _, hb⟩ := head_len h1
    exact ⟨dg, rest, more, e1, Nat.pos_of_ne_zero hb, e2 ▸ h2, e3.1.queue⟩
  · rintro ⟨k, origin⟩ rfl
    obtain ⟨hdr, dg, rest, more, h1, h2, _, _⟩ := received hn ho hr fuel buf buf' k origin h qs hq
    exact ⟨dg, rest, more, h1, h2.fits⟩

/-- C41 is false: a datagram of two bytes and a buffer of one byte. -/
theorem C41_refuted :
    (Device.udpReceive (Chip.dev (arriveSched [dgramA]) noFaults).bus 9 (arriveBound [dgramA]).1
      ([0], (arriveBound [dgramA]).2)).1 = .panic := by
  decide +kernel

/-- C42, partial: in every history, the datagrams `ds` that left the queue are, in order of arrival, those delivered by the
successful calls, each once, and lost ones; the rest is still queued. Missing: none is lost. -/
theorem C42_partial {n : Nat} (hn : n < 8) {u0 u : UdpSocket} {c0 c : Chip} {log : List UdpSent} {got : List UdpGot}
    (ho : UdpOpened sched0 faults0 n u0 c0) (hr : UdpRun sched faults n u0 c0 log got u c) :
    ∃ A ds qs, (c0.socks n).arrived = A ++ (c0.socks n).queue ∧ (c.socks n).arrived = A ++ encAll (ds ++ qs) ∧
      (c.socks n).queue = encAll qs ∧ (∀ d ∈ ds ++ qs, d.Wf) ∧ UdpGot.Among got ds := by
  obtain ⟨A, h0⟩ := opened_inv hn ho
  obtain ⟨hs0, hc0, sent0, ds0, ha0, _, hi0⟩ := h0
  have hsent : sent0 = [] := by
    generalize hl : ([] : List UdpSent) = l at ha0
    cases ha0 with
    | nil => rfl
    | snoc _ _ => cases List.append_ne_nil_of_right_ne_nil _ (by simp) hl.symm
  subst hsent
  have h0' : UdpInv n (c0.socks n).txSize (c0.socks n).packets (A ++ encAll ds0) [] [] u0 c0 :=
    ⟨hs0, hc0, [], [], .nil, ⟨.nil, nofun⟩, by simpa [encAll] using hi0⟩
  obtain ⟨_, _, _, ds, _, ⟨h1, h2⟩, hi⟩ := udpRun_inv hn h0' hr
  obtain ⟨qs, hw, hq⟩ := hi.queue
  rw [List.nil_append] at hw hq
  refine ⟨A ++ encAll ds0, ds, qs, hi0.idle.rx.core.arrived, ?_, hq, ?_, h1⟩
  · rw [hi.idle.rx.core.arrived, hq, encAll_append]
    simp only [List.append_assoc]
  · intro x hx
    rcases List.mem_append.mp hx with hx | hx
    · exact h2 x hx
    · exact hw x hx

/-- C42, what goes wrong: every successful `receive` removes all datagrams queued then (`qs`) and during the call up to the
reading of the received size (`more`), not only the one it delivers. What is queued afterwards arrived after all of them. -/
theorem C42_all_removed {n : Nat} (hn : n < 8) {u0 u : UdpSocket} {c0 : Chip} {log : List UdpSent} {got : List UdpGot}
    {d d' : Device Chip H} (ho : UdpOpened sched0 faults0 n u0 c0) (hr : UdpRun sched faults n u0 c0 log got u d.bus)
    (fuel : Nat) (buf buf' : List U8) (x : Nat × SockAddr)
    (h : Device.udpReceive (Chip.dev sched faults).bus fuel u (buf, d) = (.ok x, (buf', d'))) :
    ∃ more, (d'.bus.socks n).arrived = (d.bus.socks n).arrived ++ encAll more ++ (d'.bus.socks n).queue := by
  obtain ⟨qs, hq⟩ := queued_always hn ho hr
  obtain ⟨_, _, _, more, _, _, _, h4⟩ := received hn ho hr fuel buf buf' x.1 x.2 h qs hq
  exact ⟨more, h4⟩

/-- C42, with one datagram at a time: if only one datagram is queued and none arrives during the call, it is delivered and
nothing is lost. -/
theorem C42_single {n : Nat} (hn : n < 8) {u0 u : UdpSocket} {c0 : Chip} {log : List UdpSent} {got : List UdpGot}
    {d d' : Device Chip H} (ho : UdpOpened sched0 faults0 n u0 c0) (hr : UdpRun sched faults n u0 c0 log got u d.bus)
    (fuel : Nat) (buf buf' : List U8) (k : Nat) (origin : SockAddr)
    (h : Device.udpReceive (Chip.dev sched faults).bus fuel u (buf, d) = (.ok (k, origin), (buf', d'))) (dg : Dgram)
    (hq : Queued [dg] (d.bus.socks n)) (ha : (d'.bus.socks n).arrived = (d.bus.socks n).arrived) :
    (⟨buf, k, origin, buf'⟩ : UdpGot).Brings dg ∧ (d'.bus.socks n).queue = [] := by
  obtain ⟨hdr, dg', rest, more, h1, h2, h3, h4⟩ := received hn ho hr fuel buf buf' k origin h [dg] hq
  rw [ha] at h4
  have := congrArg List.length h4
  simp only [List.length_append] at this
  have hl : (d'.bus.socks n).queue = [] := List.length_eq_zero_iff.mp (by omega)
  cases h1
  exact ⟨⟨⟨_, h3, h2.origin⟩, h2.payload, h2.fits, h2.keeps⟩, hl⟩

/-- C42 is false: two datagrams are queued. The first `receive` delivers the first one; the second one is then gone, and the
next `receive` returns `WouldBlock`. -/
theorem C42_refuted :
    let B := (Chip.dev (arriveSched [dgramA, dgramB]) noFaults).bus
    let b := arriveBound [dgramA, dgramB]
    let r1 := Device.udpReceive B 9 b.1 ([0, 0], b.2)
    let r2 := Device.udpReceive B 9 b.1 ([0, 0], r1.2.2)
    r1.1 = .ok (2, .v4 ⟨⟨10, 0, 0, 1⟩, 53⟩) ∧ r1.2.1 = [7, 8] ∧ r2.1 = .err .wouldBlock ∧ r2.2.1 = [0, 0] ∧
      (r2.2.2.bus.socks 0).queue = [] ∧ (r2.2.2.bus.socks 0).arrived = dgramA.encode ++ dgramB.encode := by
  decide +kernel

end W5500.Props
