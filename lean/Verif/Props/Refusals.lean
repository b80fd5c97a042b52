import Verif.Props.UdpChip
import Verif.Props.UdpOpen
import Verif.Proofs.Refusals
/-! # C66 Without bus failures, failed calls do no harm -/

namespace W5500.Props
open W5500 W5500.Spec W5500.Spec.Sock socketn
variable {W E H : Type} {sched : Nat → List (Nat × Act)} {faults : Nat → Option (E × Nat)}
  {sched0 : Nat → List (Nat × Act)} {faults0 : Nat → Option (E × Nat)}

/-! ## TCP -/

/-- A TCP `send` that returns an error which is not a bus error has only read the status register. -/
theorem C66_tcp_send (B : Bus W E) (fuel : Nat) (t : TcpSocket) (data : List U8) (d d' : Device W H) (e : TcpSocketError E)
    (h : Device.tcpSend B fuel t data d = (.err e, d')) (he : ∀ x, e ≠ .other x) :
    e = .notConnected ∧ ∃ x, x ≠ 0x17 ∧ B.readFrame d.bus t.socket.register 0x03 [0] = (.ok (), [x], d'.bus) := by
  have hn : e = .notConnected := by
    have : ErrIn (fun e => e = TcpSocketError.notConnected ∨ ∃ x, e = .other x)
        (Device.tcpSend B fuel t data : M (Device W H) _ _) := by
      unfold Device.tcpSend
      refine .zoom ?_
      unfold TcpSocket.socketSend TcpSocket.socketIsConnected
      errin
    rcases this.run d e (by rw [h]) with rfl | ⟨x, rfl⟩
    · rfl
    · exact absurd rfl (he x)
  subst hn
  obtain ⟨h1, h2⟩ := C44_send B fuel t data d
  obtain ⟨x, w', hf, hx⟩ := h1.mp (by rw [h])
  refine ⟨rfl, x, hx, ?_⟩
  have := h2 x w' hf hx
  rw [h] at this
  cases this
  exact hf

/-- The same for `receive`; the caller's buffer is as before. -/
theorem C66_tcp_receive (B : Bus W E) (fuel : Nat) (t : TcpSocket) (buf buf' : List U8) (d d' : Device W H)
    (e : TcpSocketError E) (h : Device.tcpReceive B fuel t (buf, d) = (.err e, (buf', d'))) (he : ∀ x, e ≠ .other x) :
    e = .notConnected ∧ buf' = buf ∧
      ∃ x, x ≠ 0x17 ∧ B.readFrame d.bus t.socket.register 0x03 [0] = (.ok (), [x], d'.bus) := by
  have hn : e = .notConnected := by
    have : ErrIn (fun e => e = TcpSocketError.notConnected ∨ ∃ x, e = .other x)
        (Device.tcpReceive B fuel t : M (List U8 × Device W H) _ _) := by
      unfold Device.tcpReceive
      refine .zoom ?_
      unfold TcpSocket.socketReceive TcpSocket.socketIsConnected
      errin
    rcases this.run (buf, d) e (by rw [h]) with rfl | ⟨x, rfl⟩
    · rfl
    · exact absurd rfl (he x)
  subst hn
  obtain ⟨h1, h2⟩ := C44_receive B fuel t buf d
  obtain ⟨x, w', hf, hx⟩ := h1.mp (by rw [h])
  have := h2 x w' hf hx
  rw [h] at this
  cases this
  exact ⟨rfl, rfl, x, hx, hf⟩

theorem tcpSound_run {n : Nat} {c c' : Chip} {acc del : List U8} (h : TcpSoundRun sched faults n c acc del c') :
    TcpRun sched faults n c acc del c' := by
  induction h with
  | start => exact .start
  | @send _ acc del d d' fuel data r _ hs hr ih =>
    rcases hr with ⟨k, rfl⟩ | ⟨e, rfl, he⟩
    · exact .send fuel data k ih hs
    · obtain ⟨_, x, _, hf⟩ := C66_tcp_send _ fuel _ data d d' e hs he
      have := TcpRun.read (sched := sched) (faults := faults) (Socket.new (BitVec.ofNat 8 n)).register 0x03 [0] ih
      rw [show (Chip.dev sched faults).bus.readFrame d.bus _ 0x03 [0] = _ from hf] at this
      show TcpRun sched faults n c (acc ++ []) del _
      rw [List.append_nil]
      exact this
  | @receive _ acc del d d' fuel buf buf' r _ hs hr ih =>
    rcases hr with ⟨k, rfl⟩ | ⟨e, rfl, he⟩
    · exact .receive fuel buf buf' k ih hs
    · obtain ⟨_, _, x, _, hf⟩ := C66_tcp_receive _ fuel _ buf buf' d d' e hs he
      have := TcpRun.read (sched := sched) (faults := faults) (Socket.new (BitVec.ofNat 8 n)).register 0x03 [0] ih
      rw [show (Chip.dev sched faults).bus.readFrame d.bus _ 0x03 [0] = _ from hf] at this
      show TcpRun sched faults n c acc (del ++ []) _
      rw [List.append_nil]
      exact this
  | read block addr data _ ih => exact .read block addr data ih
  | write block addr data _ hf ih => exact .write block addr data ih hf
  | pass _ hp ih => exact .pass ih hp

/-- C66, TCP: as long as no call returns a bus error, and whatever other errors calls return, both byte streams are exact. -/
theorem C66_tcp (n : Nat) (hn : n < 8) (fuel : Nat) (remote : SockAddr) (d d' : Device Chip H)
    (hz : Sock.SizesOk (d.bus.socks n).mem)
    (hconn : Device.tcpConnect (Chip.dev sched faults).bus fuel ⟨Socket.new (BitVec.ofNat 8 n)⟩ remote d = (.ok (), d'))
    (acc del : List U8) (c : Chip) (hrun : TcpSoundRun sched faults n d'.bus acc del c) :
    (c.socks n).stream ++ (c.socks n).pending = (d'.bus.socks n).stream ++ acc ∧
    ∃ before, (d'.bus.socks n).arrived = before ++ (d'.bus.socks n).queue ∧
      (c.socks n).arrived = before ++ del ++ (c.socks n).queue :=
  ⟨C45 n hn fuel remote d d' hz hconn acc del c (tcpSound_run hrun),
    C46 n hn fuel remote d d' hz hconn acc del c (tcpSound_run hrun)⟩

/-- It is not vacuous: a send is accepted, the peer closes, another send is refused. -/
example :
    let sched := fun k => demoSched k ++ if 20 ≤ k then [(0, .status 0x1C)] else []
    let B := (Chip.dev sched noFaults).bus
    let r := Device.tcpSend B 9 demoSocket [7] demoConnected
    let r' := Device.tcpSend B 9 demoSocket [8] r.2
    r.1 = .ok 1 ∧ r'.1 = .err .notConnected ∧ TcpSoundRun sched noFaults 0 demoConnected.bus [7] [] r'.2.bus := by
  intro sched B r r'
  have h1 : r.1 = .ok 1 := by decide +kernel
  have h2 : r'.1 = .err .notConnected := by decide +kernel
  refine ⟨h1, h2, ?_⟩
  have := TcpSoundRun.send (faults := noFaults) (d := r.2) (n := 0) 9 [8] _ (.send (faults := noFaults) (d := demoConnected) (n := 0) 9 [7] _ .start
    (run_eq h1) (.inl ⟨1, rfl⟩)) (run_eq h2) (.inr ⟨_, rfl, nofun⟩)
  exact this

/-! ### C48 -/

theorem arrived_stable (A : List U8) : StableS fun s => A <+: s.arrived := by
  intro s a h
  unfold Sock.act Sock.push
  repeat' split
  all_goals first | exact h | exact h.trans (List.prefix_append _ _)

/-- C48, partial: a refused `receive` (the peer has closed, say) leaves the caller's buffer alone, and all bytes queued before
are still queued, whatever arrives during the call. Missing: the crate offers no way to read them; see `C48_refuted`. -/
theorem C48_kept_partial (n : Nat) (hn : n < 8) (fuel fuel' : Nat) (remote : SockAddr) (d d1 d2 d3 : Device Chip H)
    (hz : Sock.SizesOk (d.bus.socks n).mem)
    (hconn : Device.tcpConnect (Chip.dev sched faults).bus fuel ⟨Socket.new (BitVec.ofNat 8 n)⟩ remote d = (.ok (), d1))
    (acc del : List U8) (hrun : TcpRun sched faults n d1.bus acc del d2.bus) (buf buf' : List U8) (e : TcpSocketError E)
    (h : Device.tcpReceive (Chip.dev sched faults).bus fuel' ⟨Socket.new (BitVec.ofNat 8 n)⟩ (buf, d2) = (.err e, (buf', d3)))
    (he : ∀ x, e ≠ .other x) : buf' = buf ∧ (d2.bus.socks n).queue <+: (d3.bus.socks n).queue := by
  obtain ⟨rfl, rfl, x, _, hf⟩ := C66_tcp_receive _ fuel' _ buf buf' d2 d3 e h he
  refine ⟨rfl, ?_⟩
  have hrun' := TcpRun.read (sched := sched) (faults := faults) (Socket.new (BitVec.ofNat 8 n)).register 0x03 [0] hrun
  rw [hf] at hrun'
  obtain ⟨b, h0, h1⟩ := C46 n hn fuel remote d d1 hz hconn acc del _ hrun
  obtain ⟨b', h0', h1'⟩ := C46 n hn fuel remote d d1 hz hconn acc del _ hrun'
  have hb : b = b' := List.append_cancel_right (h0.symm.trans h0')
  subst hb
  have hev := Chip.readFrame_evolves (sched := sched) (faults := faults) d2.bus (Socket.new (BitVec.ofNat 8 n)).register 0x03 [0]
  rw [hf] at hev
  have := (hev.socks n).induct (arrived_stable (d2.bus.socks n).arrived) (List.prefix_refl _)
  rw [h1, h1'] at this
  exact (List.prefix_append_right_inj _).mp this

/-! ## UDP -/

/-- A UDP `send` that returns an error which is not a bus error (closed socket, no destination, `WriteTimeout` after some
packets, …) leaves nothing waiting in the TX buffer. -/
theorem C66_udp_send {n : Nat} (hn : n < 8) {u0 u : UdpSocket} {c0 : Chip} {log : List UdpSent} {got : List UdpGot}
    {d d' : Device Chip H} (ho : UdpOpened sched0 faults0 n u0 c0) (hr : UdpRun sched faults n u0 c0 log got u d.bus)
    (fuel : Nat) (data : List U8) (e : NbError (UdpSocketError E))
    (h : Device.udpSend (Chip.dev sched faults).bus fuel u data d = (.err e, d')) (he : ∀ x, e ≠ .other (.other x)) :
    Drained n d'.bus := by
  obtain ⟨A, h0⟩ := opened_inv hn ho
  obtain ⟨hs, hc, sent, ds, h1, _, h2⟩ := udpRun_inv hn h0 hr
  exact (udp_sendIdleOwn hn u hs _ _ _ _ fuel data).err h2 (onBus_run h) he

/-- The same for `send_to`. -/
theorem C66_udp_send_to {n : Nat} (hn : n < 8) {u0 u u' : UdpSocket} {c0 : Chip} {log : List UdpSent} {got : List UdpGot}
    {d d' : Device Chip H} (ho : UdpOpened sched0 faults0 n u0 c0) (hr : UdpRun sched faults n u0 c0 log got u d.bus)
    (fuel : Nat) (dst : SockAddr4) (data : List U8) (e : NbError (UdpSocketError E))
    (h : Device.udpSendTo (Chip.dev sched faults).bus fuel (.v4 dst) data (u, d) = (.err e, (u', d')))
    (he : ∀ x, e ≠ .other (.other x)) : Drained n d'.bus := by
  obtain ⟨A, h0⟩ := opened_inv hn ho
  obtain ⟨hs, hc, sent, ds, h1, _, h2⟩ := udpRun_inv hn h0 hr
  unfold Device.udpSendTo at h
  exact (udp_sendToOwn hn u hs _ _ _ _ fuel data dst).err (s := (u, d.bus)) (s' := (u', d'.bus)) ⟨rfl, h2, hc⟩ (onSockBus_run h) he

/-- A UDP `receive` that returns such an error has not moved the read pointer. -/
theorem C66_udp_receive {n : Nat} (hn : n < 8) {u0 u : UdpSocket} {c0 : Chip} {log : List UdpSent} {got : List UdpGot}
    {d d' : Device Chip H} (ho : UdpOpened sched0 faults0 n u0 c0) (hr : UdpRun sched faults n u0 c0 log got u d.bus)
    (fuel : Nat) (buf buf' : List U8) (e : NbError (UdpSocketError E))
    (h : Device.udpReceive (Chip.dev sched faults).bus fuel u (buf, d) = (.err e, (buf', d')))
    (he : ∀ x, e ≠ .other (.other x)) : (d'.bus.socks n).rxRdReg = (d.bus.socks n).rxRdReg := by
  obtain ⟨A, h0⟩ := opened_inv hn ho
  obtain ⟨hs, hc, sent, ds, h1, _, h2⟩ := udpRun_inv hn h0 hr
  unfold Device.udpReceive at h
  exact (udp_receiveOwn hn u hs _ _ _ _ _ fuel buf).err (s := (buf, d.bus)) (s' := (buf', d'.bus)) ⟨rfl, h2, rfl⟩ (onSockBus_run h) he

theorem udpSound_run {n : Nat} (hn : n < 8) {u0 u : UdpSocket} {c0 c : Chip} {log : List UdpSent} {got : List UdpGot}
    (ho : UdpOpened sched0 faults0 n u0 c0) (h : UdpSoundRun sched faults n u0 c0 log got u c) :
    UdpRun sched faults n u0 c0 log got u c := by
  induction h with
  | start => exact .start
  | send fuel data dst r _ hs hr hd ih =>
    rcases hr with ⟨k, rfl⟩ | ⟨e, rfl, he⟩
    · exact .send fuel data dst ih hs hd
    · exact .failedSend fuel data dst _ ih hs hd nofun (C66_udp_send hn ho ih fuel data e hs he)
  | sendNowhere fuel data r _ hs hd ih => exact .sendNowhere fuel data r ih hs hd
  | sendTo fuel dst data r _ hs hr ih =>
    rcases hr with ⟨k, rfl⟩ | ⟨e, rfl, he⟩
    · exact .sendTo fuel dst data ih hs
    · exact .failedSendTo fuel dst data _ ih hs nofun (C66_udp_send_to hn ho ih fuel dst data e hs he)
        (C38_settled_send_to fuel _ data _ hs fun x hx => by cases hx; exact he x rfl)
  | receive fuel buf buf' r _ hs hr ih =>
    rcases hr with ⟨⟨k, o⟩, rfl⟩ | ⟨e, rfl, he⟩
    · exact .receive fuel buf buf' k o ih hs
    · have := UdpRun.failedReceive fuel buf buf' _ ih hs nofun (C66_udp_receive hn ho ih fuel buf buf' e hs he)
      show UdpRun sched faults n u0 c0 _ (_ ++ []) _ _
      rw [List.append_nil]
      exact this
  | connect remote r _ hs hr ih =>
    refine .connect remote r ih hs (C38_settled_connect remote r hs fun x hx => ?_)
    rcases hr with ⟨k, rfl⟩ | ⟨e, rfl, he⟩
    · cases hx
    · cases hx; exact he x rfl
  | setPort port r _ hs ih => exact .setPort port r ih hs
  | bind port r _ hs ih => exact .bind port r ih hs
  | read block addr data _ ih => exact .read block addr data ih
  | write block addr data _ hf ih => exact .write block addr data ih hf
  | pass _ hp ih => exact .pass ih hp

/-- C66, UDP: as long as no call returns a bus error, and whatever other errors calls return, the packets that left are
exactly the ones asked for, call by call (C36), the results of `receive` are among the datagrams that arrived (C42), and
the socket's destination is the chip's (C38). -/
theorem C66_udp {n : Nat} (hn : n < 8) {u0 u : UdpSocket} {c0 c : Chip} {log : List UdpSent} {got : List UdpGot}
    (ho : UdpOpened sched0 faults0 n u0 c0) (h : UdpSoundRun sched faults n u0 c0 log got u c) :
    (∃ sent, UdpSent.All (c0.socks n).txSize log sent ∧ (c.socks n).packets = (c0.socks n).packets ++ sent) ∧
    (∃ A ds qs, (c0.socks n).arrived = A ++ (c0.socks n).queue ∧ (c.socks n).arrived = A ++ encAll (ds ++ qs) ∧
      (c.socks n).queue = encAll qs ∧ (∀ d ∈ ds ++ qs, d.Wf) ∧ UdpGot.Among got ds) ∧
    ∀ a, u.destination = some a → (c.socks n).dest = wire a := by
  have hr := udpSound_run hn ho h
  obtain ⟨A, h0⟩ := opened_inv hn ho
  exact ⟨C36_history hn ho hr, C42_partial hn ho hr, (udpRun_inv hn h0 hr).coherent⟩

/-- A history without bus errors from the moment the socket was handed out is one in which all calls were settled. -/
theorem udpSound_calls {n : Nat} {u : UdpSocket} {c0 c : Chip} {log : List UdpSent} {got : List UdpGot}
    (hz : Sock.SizesOk (c0.socks n).mem)
    (h : UdpSoundRun sched faults n (UdpSocket.new (Socket.new (BitVec.ofNat 8 n))) c0 log got u c) :
    UdpCalls sched faults n u c := by
  induction h with
  | start => exact .new _ hz
  | send fuel data dst r _ hs _ _ ih => exact .send fuel data r ih hs
  | sendNowhere fuel data r _ hs _ ih => exact .send fuel data r ih hs
  | sendTo fuel dst data r _ hs hr ih =>
    refine .sendTo fuel _ data r ih hs (C38_settled_send_to fuel _ data _ hs fun x hx => ?_)
    rcases hr with ⟨k, rfl⟩ | ⟨e, rfl, he⟩
    · cases hx
    · cases hx; exact he x rfl
  | receive fuel buf buf' r _ hs _ ih => exact .receive fuel buf buf' r ih hs
  | connect remote r _ hs hr ih =>
    refine .connect remote r ih hs (C38_settled_connect remote r hs fun x hx => ?_)
    rcases hr with ⟨k, rfl⟩ | ⟨e, rfl, he⟩
    · cases hx
    · cases hx; exact he x rfl
  | setPort port r _ hs ih => exact .setPort port r ih hs
  | bind port r _ hs ih => exact .bind port r ih hs
  | read block addr data _ ih => exact .read block addr data ih
  | write block addr data _ hf ih => exact .write block addr data ih hf
  | pass _ hp ih => exact .pass ih hp

/-- C66, the destination from the moment the socket was handed out, opened or not. -/
theorem C66_destination {n : Nat} (hn : n < 8) {u : UdpSocket} {c0 c : Chip} {log : List UdpSent} {got : List UdpGot}
    (hz : Sock.SizesOk (c0.socks n).mem)
    (h : UdpSoundRun sched faults n (UdpSocket.new (Socket.new (BitVec.ofNat 8 n))) c0 log got u c) (a : SockAddr4)
    (hd : u.destination = some a) : (c.socks n).dest = wire a :=
  (udpCalls_object hn (udpSound_calls hz h)).coherent a hd

/-- C31, connect, partial: as long as no call on the socket returned a bus error since it was handed out, a successful `connect`
leaves the socket with the requested destination in the chip, also if the object had it before. Missing: histories with bus
errors (`C38_refuted`) or a chip reset in between (`C65_refuted`). -/
theorem C31_connect_history_partial {n : Nat} (hn : n < 8) {u u' : UdpSocket} {c0 : Chip} {log : List UdpSent} {got : List UdpGot}
    {d d' : Device Chip H} (hz : Sock.SizesOk (c0.socks n).mem)
    (h : UdpSoundRun sched faults n (UdpSocket.new (Socket.new (BitVec.ofNat 8 n))) c0 log got u d.bus) (remote : SockAddr4)
    (hr : Device.udpConnect (Chip.dev sched faults).bus (.v4 remote) (u, d) = (.ok (), (u', d'))) :
    (StatusQuiet n sched → (d'.bus.socks n).sr = 0x22) ∧ (d'.bus.socks n).mem 0x00 = 0x02 ∧
    [(d'.bus.socks n).mem 0x04, (d'.bus.socks n).mem 0x05] = be u.port.toNat ∧ (d'.bus.socks n).dest = wire remote ∧
    u' = { u with destination := some remote } := by
  have ho := udpCalls_object hn (udpSound_calls hz h)
  obtain ⟨h1, h2, h3, _, _, h6⟩ := C31_connect_partial hn remote u u' ho.sock d d' hr
  obtain ⟨_, hi⟩ := connect_inv hn ho hr
  exact ⟨h1, h2, h3, hi.coherent remote (by rw [h6]), h6⟩

/-- It is not vacuous: `connect` twice to the same address; the second time the destination is not programmed again. -/
example : UdpSoundRun emitSched noFaults 0 demoUdp demoDevice.bus [] [] (udpConnected noFaults).1 (udpConnected noFaults).2.bus ∧
    (udpConnected noFaults).1.destination = some addrA ∧
    (Device.udpConnect (Chip.dev emitSched noFaults).bus (.v4 addrA) (udpConnected noFaults)).1 = .ok () :=
  ⟨.connect (H := Unit) (d := demoDevice) (.v4 addrA) (.ok ()) .start (run_eq (by decide +kernel)) (.inl ⟨(), rfl⟩),
    by decide +kernel, by decide +kernel⟩

/-- A chip that gives up on every packet. -/
def dropSched (_ : Nat) : List (Nat × Act) := [(0, .emit false), (0, .raise 0x08)]
def dropConnected : UdpSocket × Device Chip Unit :=
  (Device.udpConnect (Chip.dev dropSched noFaults).bus (.v4 addrA) (demoUdp, demoDevice)).2

/-- It is not vacuous: a `send_to` fails with `WriteTimeout`, and another one too; both packets have left. -/
example :
    let B := (Chip.dev dropSched noFaults).bus
    let r := Device.udpSendTo B 9 (.v4 addrB) [1] dropConnected
    let r' := Device.udpSend B 9 r.2.1 [2] r.2.2
    r.1 = .err (.other .writeTimeout) ∧ r'.1 = .err (.other .writeTimeout) ∧
    (r'.2.bus.socks 0).packets = [⟨[10, 9, 9, 9], [0, 99], [1], false⟩, ⟨[10, 9, 9, 9], [0, 99], [2], false⟩] ∧
    UdpOpened dropSched noFaults 0 dropConnected.1 dropConnected.2.bus ∧
    UdpSoundRun dropSched noFaults 0 dropConnected.1 dropConnected.2.bus
      [⟨addrB, [1], false⟩, ⟨addrB, [2], false⟩] [] r.2.1 r'.2.bus := by
  intro B r r'
  have h1 : r.1 = .err (.other .writeTimeout) := by decide +kernel
  have h2 : r'.1 = .err (.other .writeTimeout) := by decide +kernel
  refine ⟨h1, h2, by decide +kernel, .connect (H := Unit) (u := demoUdp) (d := demoDevice) (.v4 addrA) (.new _ powerUp_sizes)
    (run_eq (by decide +kernel)), ?_⟩
  exact .send (d := r.2.2) 9 [2] addrB _ (.sendTo (u := dropConnected.1) (d := dropConnected.2) 9 addrB [1] _ .start (run_eq h1) (.inr ⟨_, rfl, nofun⟩)) (run_eq h2)
    (.inr ⟨_, rfl, nofun⟩) (by decide +kernel)

end W5500.Props
