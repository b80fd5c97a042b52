import Verif.Proofs.Recover
import Verif.Props.WriteAll
import Verif.Props.Relate
/-! # C99: recovery

Whatever has gone wrong before — transfers that failed halfway, calls given up, timeouts, a peer that went away, another
protocol on the same socket — does not matter any more once the transfers stop failing and the network behaves, and the
socket is opened again. There is one exception: the destination a UDP socket object remembers. -/

namespace W5500.Props
open W5500 Spec
variable {E H : Type} {sched : Nat → List (Nat × Act)} {faults : Nat → Option (E × Nat)}

/-! ## The past -/

theorem allLike_on {t j : Nat} (ops : List (Nat × Op Unit)) :
    Op.AllLike Eq (SameFrom t j) (onBusType Chip ops) (onBusType Chip ops) := by
  induction ops with
  | nil => exact .nil
  | cons o ops ih =>
    refine .cons o.1 ?_ ih
    obtain ⟨f, o⟩ := o
    cases o <;> first
      | exact .udpSocket
      | exact .tcpSocket
      | exact .takeSocket
      | exact .udpSetPort _ _
      | exact .udpConnect _ _
      | exact .udpBind _ _
      | exact .udpSend _ rfl
      | exact .udpSendTo _ _ rfl
      | exact .udpReceive _ _
      | exact .udpClose _
      | exact .tcpConnect _ _
      | exact .tcpSend _ rfl
      | exact .tcpReceive _ _
      | exact .tcpClose _
      | exact .releaseSocket _
      | exact .leak _
      | exact .common _
      | exact .reactivate fun _ _ h => h

/-- C99, the past: when a program has brought chip and sockets into a state, then how it goes on depends on this state and on
what happens from then on only. Which transfers failed before, and what the network did before, makes no difference. -/
theorem C99_past (p q : Plan E) (c0 : Chip) (host : H) (before ops : List (Nat × Op Unit)) :
    let c := Client.after p.bus (Client.initial c0 host) (onBusType _ before)
    p.AgreeFrom q c.dev.bus →
      c.outputs p.bus (onBusType _ ops) = c.outputs q.bus (onBusType _ ops) ∧
      c.after p.bus (onBusType _ ops) = c.after q.bus (onBusType _ ops) := by
  intro c h
  have hi : ∀ (ops : List (Nat × Op Chip)) {c : Client Chip H}, AllocInv c → AllocInv (c.after p.bus ops) := by
    intro ops
    induction ops with
    | nil => exact fun h => h
    | cons o ops ih => exact fun h => ih (h.step _ _)
  obtain ⟨h1, h2⟩ := outputs_like (respects_from h.sched h.faults) Cut.eq blocks_all (allLike_on ops)
    (hi (onBusType _ before) (allocInv_initial c0 host)) (c' := c) ⟨⟨rfl, Nat.le_refl _, Nat.le_refl _⟩, rfl, rfl, rfl⟩
  refine ⟨h1, ?_⟩
  generalize c.after q.bus (onBusType _ ops) = y at h2
  change (c.after p.bus (onBusType _ ops)).Like _ y at h2
  generalize c.after p.bus (onBusType _ ops) = x at h2
  obtain ⟨⟨b, s⟩, l, o⟩ := x
  obtain ⟨⟨b', s'⟩, l', o'⟩ := y
  obtain ⟨⟨h3, _⟩, h4, h5, h6⟩ := h2
  dsimp only at h3 h4 h5 h6
  subst h3 h4 h5 h6
  rfl

/-! ## UDP -/

/-- Every contents of the destination registers is the address of some endpoint. -/
theorem wire_onto (s : Sock) : ∃ a, wire a = s.dest :=
  ⟨⟨⟨s.mem 0x0C, s.mem 0x0D, s.mem 0x0E, s.mem 0x0F⟩, fromBeBytes (s.mem 0x10) (s.mem 0x11)⟩, by
    unfold wire Sock.dest
    rw [← toBeBytes_eq_be, toBeBytes_fromBeBytes]⟩

theorem flush_destination {W : Type} (B : Bus W E) (fuel : Nat) (u : UdpSocket) (a b : SockAddr4) :
    UdpSocket.flushLoop B { u with destination := some a } fuel = UdpSocket.flushLoop B { u with destination := some b } fuel := by
  induction fuel with
  | zero => rfl
  | succ k ih =>
    funext w
    unfold UdpSocket.flushLoop
    rw [ih]
    rfl

theorem one_destination {W : Type} (B : Bus W E) (fuel : Nat) (u : UdpSocket) (a b : SockAddr4) (data : List U8) :
    UdpSocket.socketSend B fuel { u with destination := some a } data =
      UdpSocket.socketSend B fuel { u with destination := some b } data := by
  unfold UdpSocket.socketSend UdpSocket.blockSendCommand
  rw [flush_destination B fuel u a b]
  rfl

theorem send_destination {W : Type} (B : Bus W E) (fuel : Nat) (u : UdpSocket) (a b : SockAddr4) (data : List U8) :
    UdpSocket.socketSendAll B fuel { u with destination := some a } data =
      UdpSocket.socketSendAll B fuel { u with destination := some b } data := by
  have h : ∀ k free total, UdpSocket.sendAllLoop B fuel { u with destination := some a } data k free total =
      UdpSocket.sendAllLoop B fuel { u with destination := some b } data k free total := by
    intro k
    induction k with
    | zero => exact fun _ _ => rfl
    | succ k ih =>
      intro free total
      unfold UdpSocket.sendAllLoop
      simp only [ih, one_destination B fuel u a b]
  unfold UdpSocket.socketSendAll
  simp only [h]
  rfl

theorem allSent_destination {W : Type} (B : Bus W E) (u : UdpSocket) (a b : SockAddr4) (xs : List (List U8)) {d d' : Device W H}
    (h : AllSent B { u with destination := some a } xs d d') : AllSent B { u with destination := some b } xs d d' := by
  induction xs generalizing d with
  | nil => exact h
  | cons x xs ih =>
    obtain ⟨d1, ⟨hne, N, hN⟩, h2⟩ := h
    refine ⟨d1, ⟨hne, N, fun fuel hf => ?_⟩, ih h2⟩
    exact (congrArg (fun m => Device.onBus m d) (send_destination B fuel u b a x)).trans (hN fuel hf)

/-- C99, UDP: whatever state the chip is in — unless the socket was last used for TCP or a timeout is still due — and
whatever the socket object was used for, if from now on no transfer fails and all packets get out: `connect` to `dst` and any
number of sends return `Ok`, and all the data leaves. It leaves for `dst`, unless the object already remembers `dst` as its
destination; then it leaves for whatever is in the destination registers of the chip. -/
theorem C99_udp {n : Nat} (hn : n < 8) (u : UdpSocket) (hu : u.socket = Socket.new (BitVec.ofNat 8 n)) (d : Device Chip H)
    (hz : Sock.SizesOk (d.bus.socks n).mem) (hf : NoFaultsFrom faults d.bus) (hs : StatusFrom sched n (· = 0x22) d.bus)
    (hl : LosslessFrom sched n d.bus) (he : Emitting sched n) (hp : (d.bus.socks n).proto ≠ 1)
    (ho : (d.bus.socks n).owed.getLsbD 3 = false) (dst : SockAddr4) (xs : List (List U8)) :
    let far := if u.destination = some dst then (d.bus.socks n).dest else wire dst
    ∃ d1 d' : Device Chip H, Device.udpConnect (Chip.dev sched faults).bus (.v4 dst) (u, d) =
        (.ok (), ({ u with destination := some dst }, d1)) ∧
      AllSent (Chip.dev sched faults).bus { u with destination := some dst } xs d1 d' ∧
      (d'.bus.socks n).packets = (d1.bus.socks n).packets ++
        (xs.flatMap (pieces (d1.bus.socks n).txSize)).map fun p => ⟨far.1, far.2, p, true⟩ := by
  intro far
  let p : Plan E := ⟨sched, faults⟩
  let q := p.since d.bus
  have hresp : Respects (fun _ => True) (fun _ => True) Eq p.bus q.bus (SameFrom d.bus.clock d.bus.txn) := p.since_respects d.bus
  -- an object that behaves like `u` and remembers nothing wrong
  obtain ⟨v, a, hv, hpv, ha, hc, hscr⟩ : ∃ (v : UdpSocket) (a : SockAddr4), v.socket = u.socket ∧ v.port = u.port ∧ wire a = far ∧
      Coherent n v d.bus ∧ destScript v a = destScript u dst := by
    by_cases h : u.destination = some dst
    · obtain ⟨a, ha⟩ := wire_onto (d.bus.socks n)
      refine ⟨{ u with destination := some a }, a, rfl, rfl, ?_, ?_, ?_⟩
      · rw [ha]; exact (if_pos h).symm
      · intro b hb; cases hb; exact ha.symm
      · unfold destScript; rw [if_pos rfl, if_pos h]
    · refine ⟨{ u with destination := none }, dst, rfl, rfl, (if_neg h).symm, nofun, ?_⟩
      unfold destScript; rw [if_neg nofun, if_neg h]
  obtain ⟨d1, h1, h2, h3⟩ := C76_udp_connect (sched := q.sched) (faults := q.faults) hn hf.since hs.since hl.since v (hv.trans hu) d hp
    ho a
  obtain ⟨d', h4, h5⟩ := C76_udp_sends hn hf.since hs.since he.since hl.since (.anew (.v4 a) (hv.trans hu) hz hc h1) a rfl xs .start
    h2 h3
  -- the same with `p`
  obtain ⟨e1, e2, e3⟩ := from_sock (u := v) (rel_devUdpConnect hresp trivial (.v4 a)) (d := d) (Nat.le_refl _) (Nat.le_refl _)
  have h1' : Device.udpConnect q.bus (.v4 a) (v, d) = (.ok (), ({ v with destination := some a }, d1)) := h1
  rw [e1, h1'] at e2 e3
  have h4' := allSent_from hresp _ xs e2 e3 h4
  -- the same with `u`
  rw [← e1, C31_connect_script, hv, hpv, hscr] at h1'
  refine ⟨d1, d', ?_, ?_, by rw [h5, ha]⟩
  · rw [C31_connect_script]
    have hr := congrArg Prod.fst h1'
    have hd := congrArg (fun r => r.2.2) h1'
    refine Prod.ext hr (Prod.ext ?_ hd)
    exact congrArg (fun r => onOk r { u with destination := some dst } u) hr
  · have : ({ v with destination := some a } : UdpSocket) = { u with destination := some a } := by
      obtain ⟨s, po, de⟩ := v
      dsimp only at hv hpv
      rw [hv, hpv]
    rw [this] at h4'
    exact allSent_destination _ u a dst xs h4'

/-- C99, UDP, if what the object remembers as its destination is what the chip has in the registers (or nothing): all data
leaves for the address given. Missing: the case that they differ, as after a failed `send_to` — see C99_udp_refuted. -/
theorem C99_udp_partial {n : Nat} (hn : n < 8) (u : UdpSocket) (hu : u.socket = Socket.new (BitVec.ofNat 8 n)) (d : Device Chip H)
    (hz : Sock.SizesOk (d.bus.socks n).mem) (hf : NoFaultsFrom faults d.bus) (hs : StatusFrom sched n (· = 0x22) d.bus)
    (hl : LosslessFrom sched n d.bus) (he : Emitting sched n) (hp : (d.bus.socks n).proto ≠ 1)
    (ho : (d.bus.socks n).owed.getLsbD 3 = false) (hc : Coherent n u d.bus) (dst : SockAddr4) (xs : List (List U8)) :
    ∃ d1 d' : Device Chip H, Device.udpConnect (Chip.dev sched faults).bus (.v4 dst) (u, d) =
        (.ok (), ({ u with destination := some dst }, d1)) ∧
      AllSent (Chip.dev sched faults).bus { u with destination := some dst } xs d1 d' ∧
      (d'.bus.socks n).packets = (d1.bus.socks n).packets ++
        (xs.flatMap (pieces (d1.bus.socks n).txSize)).map fun p => ⟨(wire dst).1, (wire dst).2, p, true⟩ := by
  have h := C99_udp hn u hu d hz hf hs hl he hp ho dst xs
  have e : (if u.destination = some dst then (d.bus.socks n).dest else wire dst) = wire dst := by
    split
    · exact hc dst ‹_›
    · rfl
  rw [e] at h
  exact h

/-- C99 is false for UDP: after a `send_to` B that failed halfway, opening the socket again with `connect` to A does not
repair the destination registers, though no transfer fails any more. The data sent then leaves for B's address,
and every call returns `Ok`. (By C99_udp so does everything sent later; connecting to B first, and then to A, helps.) -/
theorem C99_udp_refuted :
    let B := (Chip.dev emitSched (faultAt 9)).bus
    let r1 := Device.udpSendTo B 9 (.v4 addrB) [1] (udpConnected (faultAt 9))
    let r2 := Device.udpConnect B (.v4 addrA) r1.2
    let r3 := Device.udpSend B 9 r2.2.1 [5] r2.2.2
    r1.1 = .err (.other (.other ())) ∧ NoFaultsFrom (faultAt 9) r1.2.2.bus ∧ r2.1 = .ok () ∧ r3.1 = .ok () ∧
      (r3.2.bus.socks 0).packets = [⟨[10, 9, 9, 9], [0, 53], [5], true⟩] ∧ wire addrA = ([10, 0, 0, 1], [0, 53]) := by
  refine ⟨by decide +kernel, ?_, by decide +kernel, by decide +kernel, by decide +kernel, by decide +kernel⟩
  intro i hi
  have : 10 ≤ i := by
    have h : (Device.udpSendTo (Chip.dev emitSched (faultAt 9)).bus 9 (.v4 addrB) [1] (udpConnected (faultAt 9))).2.2.bus.txn = 10 := by
      decide +kernel
    omega
  exact if_neg (by omega)

/-! ## TCP -/

/-- C99, TCP: from any state of the chip, if from now on no transfer fails, the chip reports TCP states, and the connection
attempt is answered: `connect` returns `Ok`. If the connection is then established and stays, and the network takes data, then
everything a client writes is accepted, and goes to the end of what the peer has been and will be sent. -/
theorem C99_tcp {n : Nat} (hn : n < 8) (d : Device Chip H) (hz : Sock.SizesOk (d.bus.socks n).mem)
    (hf : NoFaultsFrom faults d.bus) (hs : StatusFrom sched n TcpState d.bus) (ha : Answering sched n) (remote : SockAddr4) :
    (∃ d1 : Device Chip H,
      Succeeds (fun fuel => Device.tcpConnect (Chip.dev sched faults).bus fuel ⟨Socket.new (BitVec.ofNat 8 n)⟩ (.v4 remote)) d () d1) ∧
    ∀ fuel d1, Device.tcpConnect (Chip.dev sched faults).bus fuel ⟨Socket.new (BitVec.ofNat 8 n)⟩ (.v4 remote) d = (.ok (), d1) →
      (d1.bus.socks n).sr = 0x17 → StatusFrom sched n (· = 0x17) d1.bus → Confirming sched n → Draining sched n →
      ∀ data, ∃ d' : Device Chip H,
        Succeeds (fun fuel => sendWhole (Device.tcpSend (Chip.dev sched faults).bus fuel ⟨Socket.new (BitVec.ofNat 8 n)⟩) fuel data)
          d1 () d' ∧
        (d'.bus.socks n).stream ++ (d'.bus.socks n).pending = (d1.bus.socks n).stream ++ (d1.bus.socks n).pending ++ data := by
  let p : Plan E := ⟨sched, faults⟩
  have hresp := p.since_respects d.bus
  have e := fun fuel => from_dev (rel_devTcpConnect hresp (t := ⟨Socket.new (BitVec.ofNat 8 n)⟩) trivial fuel (.v4 remote)) (d := d)
    (Nat.le_refl _) (Nat.le_refl _)
  constructor
  · obtain ⟨d1, hne, N, hN⟩ := C76_tcp_connect (sched := (p.since d.bus).sched) (faults := (p.since d.bus).faults) hn hf.since
      hs.since ha.since remote d
    exact ⟨d1, hne, N, fun fuel h => (e fuel).1.trans (hN fuel h)⟩
  intro N d1 hconn hsr hs1 hc hd data
  have ht := (e N).2.2
  rw [show Device.tcpConnect p.bus N _ _ d = _ from hconn] at ht
  have hf1 : NoFaultsFrom faults d1.bus := fun i hi => hf i (Nat.le_trans ht hi)
  have hresp1 := p.since_respects d1.bus
  obtain ⟨d', ⟨hne', N', hN1⟩, h2, _, _⟩ := C95 (sched := (p.since d1.bus).sched) (faults := (p.since d1.bus).faults) hn hf1.since
    hs1.since hc.since hd.since N (.v4 remote) d d1 d1 hz hconn [] [] .start hsr data
  refine ⟨d', ⟨hne', N', fun fuel h => ?_⟩, h2⟩
  exact (from_dev (rel_sendWhole (fun x => Rel.onBus (rel_tcpSend hresp1 Cut.eq (t := ⟨Socket.new (BitVec.ofNat 8 n)⟩) trivial trivial fuel
    (rfl : x = x))) fuel data) (d := d1) (Nat.le_refl _) (Nat.le_refl _)).1.trans (hN1 fuel h)

/-! ## MACRAW and initialisation -/

/-- C99, initialisation: from any state of the chip, if from now on no transfer fails (and the version register has the
right contents), all of it returns `Ok`. -/
theorem C99_init (c : Chip) (hf : NoFaultsFrom faults c) (av : Bool) (hv : av = true → c.cmem 0x39 = 4) (mac : Mac)
    (ip gateway subnet : Ipv4) (mode : Mode) :
    (∃ st c', Uninit.initialize av (Chip.dev sched faults).bus mac mode c = (.ok st, c')) ∧
    (∃ st c', Uninit.initializeManual av (Chip.dev sched faults).bus mac ip mode c = (.ok st, c')) ∧
    (∃ st c', Uninit.initializeAdvanced av (Chip.dev sched faults).bus mac ip gateway subnet mode c = (.ok st, c')) ∧
    (∃ r c', Uninit.initializeMacraw (Chip.dev sched faults).bus mac c = (.ok r, c')) := by
  let p : Plan E := ⟨sched, faults⟩
  have hresp := p.since_respects c
  obtain ⟨⟨s1, c1, h1⟩, ⟨s2, c2, h2⟩, ⟨s3, c3, h3⟩, s4, c4, h4⟩ := C76_init (p.since c).bus (healthy_chip hf.since) av c (fun h x w' e => by
    have e1 := congrArg (fun r => r.2.1) e
    unfold Plan.bus ByteDev.bus at e1
    dsimp only [Chip.dev] at e1
    rw [hf.since (sched := sched)] at e1
    have e2 := List.head_eq_of_cons_eq e1
    rw [← e2, ← hv h]
    exact congrFun (Chip.tick_evolves _ _).cmem _) mac ip gateway subnet mode
  refine ⟨⟨s1, c1, ?_⟩, ⟨s2, c2, ?_⟩, ⟨s3, c3, ?_⟩, s4, c4, ?_⟩
  · exact (from_eq (rel_initializeWithHost hresp trivial av (Dhcp.new mac) mode (.pure rfl)) (Nat.le_refl _) (Nat.le_refl _)).1.trans h1
  · exact (from_eq (rel_initializeWithHost hresp trivial av _ mode (rel_manualRefresh hresp trivial)) (Nat.le_refl _)
      (Nat.le_refl _)).1.trans h2
  · exact (from_eq (rel_initializeWithHost hresp trivial av _ mode (rel_manualRefresh hresp trivial)) (Nat.le_refl _)
      (Nat.le_refl _)).1.trans h3
  · exact (from_eq (rel_initializeMacraw hresp trivial (fun _ _ => trivial) mac) (Nat.le_refl _) (Nat.le_refl _)).1.trans h4

/-- C99, MACRAW: from any state of the chip, if from now on no transfer fails and all packets get out: `initialize_macraw`
returns `Ok`, and so does `write_frame`, for any frames that fit; they all leave, in order. -/
theorem C99_raw (c : Chip) (hf : NoFaultsFrom faults c) (hl : LosslessFrom sched 0 c) (he : Emitting sched 0)
    (hc : Confirming sched 0) (mac : Mac) :
    ∃ r c1, Uninit.initializeMacraw (Chip.dev sched faults).bus mac c = (.ok r, c1) ∧
      ∀ xs : List (List U8), (∀ x ∈ xs, x ≠ [] ∧ x.length ≤ 16384) →
        ∃ c', AllWritten (Chip.dev sched faults).bus r xs c1 c' ∧
          ∃ ps, (c'.socks 0).packets = (c1.socks 0).packets ++ ps ∧ ps.map (·.data) = xs ∧ ∀ p ∈ ps, p.delivered = true := by
  let p : Plan E := ⟨sched, faults⟩
  let q := p.since c
  have hresp : Respects (fun _ => True) (fun _ => True) Eq p.bus q.bus (SameFrom c.clock c.txn) := p.since_respects c
  obtain ⟨r, c1, h1⟩ := (C76_init q.bus (healthy_chip hf.since) false c nofun mac ⟨0, 0, 0, 0⟩ ⟨0, 0, 0, 0⟩ ⟨0, 0, 0, 0⟩ ⟨.ignore, .respond, .ethernet, .cache⟩).2.2.2
  obtain ⟨e1, e2, e3⟩ := from_eq (rel_initializeMacraw hresp trivial (fun _ _ => trivial) mac) (c := c) (Nat.le_refl _) (Nat.le_refl _)
  rw [e1, h1] at e2 e3
  refine ⟨r, c1, e1.trans h1, fun xs hx => ?_⟩
  have key : ∀ (xs : List (List U8)), (∀ x ∈ xs, x ≠ [] ∧ x.length ≤ 16384) → ∀ {c2 : Chip} {log : List RawSent},
      RawRun q.sched q.faults r c1 log [] c2 → ∃ c', AllWritten q.bus r xs c2 c' ∧
        ∃ ps, (c'.socks 0).packets = (c2.socks 0).packets ++ ps ∧ ps.map (·.data) = xs ∧ ∀ p ∈ ps, p.delivered = true := by
    intro xs
    induction xs with
    | nil => exact fun _ c2 _ _ => ⟨c2, rfl, [], (List.append_nil _).symm, rfl, nofun⟩
    | cons x xs ih =>
      intro hx c2 log hr
      obtain ⟨hne, hlen⟩ := hx x List.mem_cons_self
      obtain ⟨c3, h2, ip, port, h3⟩ := C76_raw_write hf.since he.since hc.since hl.since (.init mac h1) hr x hne hlen
      have ⟨_, N, hN⟩ := h2
      obtain ⟨c', h4, ps, h5, h6, h7⟩ := ih (fun y hy => hx y (List.mem_cons_of_mem _ hy)) (.writeFrame N x _ hr (hN N (Nat.le_refl _)))
      refine ⟨c', ⟨c3, h2, h4⟩, ⟨ip, port, x, true⟩ :: ps, ?_, by rw [List.map_cons, h6], ?_⟩
      · rw [h5, h3, List.append_assoc]; rfl
      · intro y hy
        rcases List.mem_cons.mp hy with rfl | hy
        · rfl
        · exact h7 y hy
  obtain ⟨c', h2, h3⟩ := key xs hx .start
  exact ⟨c', allWritten_from hresp r xs e2 e3 h2, h3⟩

/-! ## Concrete cases -/

/-- A UDP socket object after `connect` to A whose second transfer failed. -/
def failedOpen : UdpSocket × Device Chip Unit :=
  (Device.udpConnect (Chip.dev emitSched (faultAt 1)).bus (.v4 addrA) (demoUdp, demoDevice)).2

theorem faultAt_past {i : Nat} {c : Chip} (h : i < c.txn) : NoFaultsFrom (faultAt i) c := fun k hk => if_neg (by omega)

theorem failedOpen_sizes : Sock.SizesOk (failedOpen.2.bus.socks 0).mem := by
  unfold Sock.SizesOk Sock.GoodSize
  decide +kernel

/-- C99: the failed `connect` is repeated, then any datagrams are sent. -/
example (xs : List (List U8)) : failedOpen.2.bus.txn = 2 ∧
    (Device.udpConnect (Chip.dev emitSched (faultAt 1)).bus (.v4 addrA) (demoUdp, demoDevice)).1 = .err (.other ()) ∧
    ∃ d1 d' : Device Chip Unit, AllSent (Chip.dev emitSched (faultAt 1)).bus { failedOpen.1 with destination := some addrA } xs d1 d' := by
  refine ⟨by decide +kernel, by decide +kernel, ?_⟩
  obtain ⟨d1, d', _, h, _⟩ := C99_udp_partial (n := 0) (by decide) failedOpen.1 (by decide +kernel) failedOpen.2 failedOpen_sizes
    (faultAt_past (i := 1) (by decide +kernel)) (fun k x _ h => emit_status (p := (· = 0x22)) k x h) (fun k _ => emit_lossless k) emit_emitting
    (by decide +kernel) (by decide +kernel) (by
      intro a h
      rw [show failedOpen.1.destination = none by decide +kernel] at h
      exact nomatch h) addrA xs
  exact ⟨d1, d', h⟩

/-- After the `send_to` B that failed halfway. -/
def halfway : UdpSocket × Device Chip Unit :=
  (Device.udpSendTo (Chip.dev emitSched (faultAt 9)).bus 9 (.v4 addrB) [1] (udpConnected (faultAt 9))).2

/-- C99: everything that is sent after a new `connect` to A goes to the wrong address. -/
example (xs : List (List U8)) : ∃ d1 d' : Device Chip Unit,
    Device.udpConnect (Chip.dev emitSched (faultAt 9)).bus (.v4 addrA) halfway = (.ok (), ({ halfway.1 with destination := some addrA }, d1)) ∧
    (d'.bus.socks 0).packets = (d1.bus.socks 0).packets ++
      (xs.flatMap (pieces (d1.bus.socks 0).txSize)).map fun p => ⟨[10, 9, 9, 9], [0, 53], p, true⟩ := by
  have h := C99_udp (n := 0) (by decide) halfway.1 (by decide +kernel) halfway.2
    (by unfold Sock.SizesOk Sock.GoodSize; decide +kernel)
    (faultAt_past (i := 9) (by decide +kernel)) (fun k x _ h => emit_status (p := (· = 0x22)) k x h) (fun k _ => emit_lossless k) emit_emitting
    (by decide +kernel) (by decide +kernel) addrA xs
  rw [show (if halfway.1.destination = some addrA then (halfway.2.bus.socks 0).dest else wire addrA) = ([10, 9, 9, 9], [0, 53]) by
    decide +kernel] at h
  obtain ⟨d1, d', h1, _, h3⟩ := h
  exact ⟨d1, d', h1, h3⟩

/-- After a TCP `connect` whose fifth transfer failed. -/
def failedConnect : Device Chip Unit :=
  (Device.tcpConnect (Chip.dev drainSched (faultAt 4)).bus 100 demoSocket demoRemote demoDevice).2

theorem drain_answering : Answering drainSched 0 := fun k => ⟨k + 16, by omega, ⟨0x17, .inl rfl, by
  unfold drainSched; rw [if_neg (by omega)]; simp⟩, fun y hy => .inl (drain_status _ y hy)⟩

/-- C99: the failed `connect` is repeated. -/
example : (Device.tcpConnect (Chip.dev drainSched (faultAt 4)).bus 100 demoSocket demoRemote demoDevice).1 = .err (.other ()) ∧
    ∃ d1 : Device Chip Unit, Succeeds (fun fuel => Device.tcpConnect (Chip.dev drainSched (faultAt 4)).bus fuel
      ⟨Socket.new (BitVec.ofNat 8 0)⟩ (.v4 addrA)) failedConnect () d1 := by
  refine ⟨by decide +kernel, ?_⟩
  exact (C99_tcp (n := 0) (by decide) failedConnect (by unfold Sock.SizesOk Sock.GoodSize; decide +kernel)
    (faultAt_past (i := 4) (by decide +kernel)) (fun k x _ h => by rw [drain_status k x h]; decide) drain_answering addrA).1

/-- … after which the connection stands, and 100000 bytes can be sent. -/
def secondConnect : Device Chip Unit :=
  (Device.tcpConnect (Chip.dev drainSched (faultAt 4)).bus 100 demoSocket (.v4 addrA) failedConnect).2

example : ∃ d' : Device Chip Unit,
    Succeeds (fun fuel => sendWhole (Device.tcpSend (Chip.dev drainSched (faultAt 4)).bus fuel demoSocket) fuel (List.replicate 100000 7))
      secondConnect () d' := by
  obtain ⟨d', h, _⟩ := (C99_tcp (n := 0) (by decide) failedConnect (by unfold Sock.SizesOk Sock.GoodSize; decide +kernel)
    (faultAt_past (i := 4) (by decide +kernel)) (fun k x _ h => by rw [drain_status k x h]; decide) drain_answering addrA).2
    100 secondConnect (by rw [secondConnect]; exact run_eq (by decide +kernel)) (by decide +kernel) (fun k x _ h => drain_status k x h)
    (fun k => ⟨k + 16, by omega, 0x10, by decide, by unfold drainSched; rw [if_neg (by omega)]; simp⟩) drain_draining
    (List.replicate 100000 7)
  exact ⟨d', h⟩

/-- C99: `initialize_macraw` fails in its second transfer, and is repeated; then any small frames are written. -/
example (xs : List (List U8)) (h : ∀ x ∈ xs, x ≠ [] ∧ x.length ≤ 16384) :
    let r0 := Uninit.initializeMacraw (Chip.dev frameSched (faultAt 1)).bus ⟨1, 2, 3, 4, 5, 6⟩ Chip.powerUp
    r0.1 = .err (.spiError ()) ∧ ∃ r c1 c', Uninit.initializeMacraw (Chip.dev frameSched (faultAt 1)).bus ⟨1, 2, 3, 4, 5, 6⟩ r0.2 =
      (.ok r, c1) ∧ AllWritten (Chip.dev frameSched (faultAt 1)).bus r xs c1 c' := by
  refine ⟨by decide +kernel, ?_⟩
  obtain ⟨r, c1, h1, h2⟩ := C99_raw (sched := frameSched) (faults := faultAt 1)
    (Uninit.initializeMacraw (Chip.dev frameSched (faultAt 1)).bus ⟨1, 2, 3, 4, 5, 6⟩ Chip.powerUp).2
    (faultAt_past (by decide +kernel))
    (fun k _ hk => by unfold frameSched at hk; split at hk <;> simp at hk)
    (fun k => ⟨k, Nat.le_refl _, true, by unfold frameSched; simp⟩)
    (fun k => ⟨k, Nat.le_refl _, 0x10, by decide, by unfold frameSched; simp⟩) ⟨1, 2, 3, 4, 5, 6⟩
  obtain ⟨c', h3, _⟩ := h2 xs h
  exact ⟨r, c1, c', h1, h3⟩

/-- C99: after a `connect` that failed in its second transfer, everything goes on as if it had not been for a failure, but for
some other reason that led to the same state. -/
example (ops : List (Nat × Op Unit)) :
    let before : List (Nat × Op Unit) := [(9, .udpSocket), (9, .udpConnect 0 (.v4 addrA))]
    let c := Client.after (⟨emitSched, faultAt 1⟩ : Plan Unit).bus (Client.initial Chip.powerUp ()) (onBusType _ before)
    c.outputs (⟨emitSched, faultAt 1⟩ : Plan Unit).bus (onBusType _ ops) = c.outputs (⟨emitSched, noFaults⟩ : Plan Unit).bus (onBusType _ ops) :=
  (C99_past ⟨emitSched, faultAt 1⟩ ⟨emitSched, noFaults⟩ Chip.powerUp () [(9, .udpSocket), (9, .udpConnect 0 (.v4 addrA))] ops
    ⟨fun _ _ => rfl, faultAt_past (by decide +kernel)⟩).1

end W5500.Props
