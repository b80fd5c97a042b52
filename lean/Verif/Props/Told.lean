import Verif.Proofs.Told
/-! # C84 Datagrams go to the peer named last, from the port named last -/

namespace W5500.Props
open W5500 W5500.Spec W5500.Spec.Sock socketn
variable {E H : Type} {sched : Nat → List (Nat × Act)} {faults : Nat → Option (E × Nat)}

/-- Calls that only write script after script return `Ok` or a bus error. -/
theorem scripted_sound {C : Type} {D : ByteDev C E} {l : List Wr} {w : C} {r : Res (UdpSocketError E) Unit}
    (h : (M.mapErr UdpSocketError.other (writeAll D.bus l) w).1 = r) (hr : UdpSound r) : r = .ok () := by
  rcases hw : writeAll D.bus l w with ⟨r1, w1⟩
  rw [M.mapErr_def, hw] at h
  rcases writeAll_outcome _ _ _ _ _ hw with rfl | ⟨e, rfl⟩
  · exact h.symm
  · subst h
    rcases hr with ⟨k, hk⟩ | ⟨e', he, hx⟩
    · cases hk
    · cases he
      exact absurd rfl (hx e)

theorem connect_sound {u u' : UdpSocket} {d d' : Device Chip H} {a : SockAddr4} {r : Res (UdpSocketError E) Unit}
    (h : Device.udpConnect (Chip.dev sched faults).bus (.v4 a) (u, d) = (r, (u', d'))) (hr : UdpSound r) : r = .ok () := by
  rw [C31_connect_script] at h
  exact scripted_sound (Prod.mk.inj h).1 hr

theorem bind_sound {u u' : UdpSocket} {d d' : Device Chip H} {port : U16} {r : Res (UdpSocketError E) Unit}
    (h : Device.udpBind (Chip.dev sched faults).bus port (u, d) = (r, (u', d'))) (hr : UdpSound r) : r = .ok () := by
  rw [C31_bind_script] at h
  exact scripted_sound (Prod.mk.inj h).1 hr

theorem setPort_sound {u u' : UdpSocket} {d d' : Device Chip H} {port : U16} {r : Res (UdpSocketError E) Unit}
    (h : Device.onSockBus (UdpSocket.setPort (Chip.dev sched faults).bus port) (u, d) = (r, (u', d'))) (hr : UdpSound r) :
    r = .ok () ∧ u' = { u with port := port } := by
  have hrun := onSockBus_run h
  have h1 : UdpSocket.setPort (Chip.dev sched faults).bus port (u, d.bus) =
      let r := M.mapErr UdpSocketError.other (writeAll (Chip.dev sched faults).bus [(u.socket.register, 0x04, toBeBytes port)]) d.bus
      (r.1, ({ u with port := port }, r.2)) := by
    rw [writeAll_one]
    exact onSnd_mapErr _ _ _ _
  rw [h1] at hrun
  obtain ⟨h2, h3⟩ := Prod.mk.inj hrun
  exact ⟨scripted_sound h2 hr, (Prod.mk.inj h3).1.symm⟩

theorem sendTo_sound {u u' : UdpSocket} {d d' : Device Chip H} {fuel : Nat} {a : SockAddr4} {data : List U8}
    {r : Res (NbError (UdpSocketError E)) Unit}
    (h : Device.udpSendTo (Chip.dev sched faults).bus fuel (.v4 a) data (u, d) = (r, (u', d')))
    (hr : ∀ e, r ≠ .err (.other (.other e))) : u' = { u with destination := some a } := by
  rcases hw : writeAll (Chip.dev sched faults).bus (destScript u a) d.bus with ⟨r1, w1⟩
  rcases writeAll_outcome _ _ _ _ _ hw with rfl | ⟨e, rfl⟩
  · rw [C35_send_to _ _ _ _ _ _ _ hw] at h
    exact (Prod.mk.inj (Prod.mk.inj h).2).1.symm
  · exfalso
    unfold Device.udpSendTo Device.onSockBus M.zoom UdpSocket.socketSendTo at h
    dsimp only at h
    have hs : UdpSocket.setDestination (Chip.dev sched faults).bus a (u, d.bus) =
        (.err (.other e), (u, w1)) := by
      rw [setDestination_eq]
      dsimp only
      rw [show M.mapErr UdpSocketError.other (writeAll _ (destScript u a)) d.bus = _ from M.mapErr_err hw]
      rfl
    rw [M.bind_err (M.mapErr_err hs)] at h
    exact hr e (Prod.mk.inj h).1.symm

theorem not_busy {ε : Type} {r : Res (NbError (UdpSocketError E)) ε} (h : NbSound r) : ∀ e, r ≠ .err (.other (.other e)) := by
  intro x hx
  rcases h with ⟨k, rfl⟩ | ⟨e, rfl, he⟩
  · cases hx
  · cases hx; exact he x rfl

/-- A history without bus errors, since the object was handed out. -/
theorem told_sound {n : Nat} {last : Option SockAddr4} {port : U16} {up : Bool} {u : UdpSocket} {c : Chip}
    (h : UdpTold sched faults n last port up u c) : ∃ c0 log got, Sock.SizesOk (c0.socks n).mem ∧
      UdpSoundRun sched faults n (UdpSocket.new (Socket.new (BitVec.ofNat 8 n))) c0 log got u c := by
  induction h with
  | new c hz => exact ⟨c, [], [], hz, .start⟩
  | connect remote r _ hs hr ih => exact ih.imp fun _ ⟨_, _, hz, h⟩ => ⟨_, _, hz, .connect remote r h hs hr⟩
  | bind p r _ hs _ ih => exact ih.imp fun _ ⟨_, _, hz, h⟩ => ⟨_, _, hz, .bind p r h hs⟩
  | setPort p r _ hs _ ih => exact ih.imp fun _ ⟨_, _, hz, h⟩ => ⟨_, _, hz, .setPort p r h hs⟩
  | @send _ _ _ _ u d d' fuel data r _ hs hr ih =>
    obtain ⟨c0, log, got, hz, h⟩ := ih
    rcases hd : u.destination with _ | a
    · exact ⟨c0, _, _, hz, .sendNowhere fuel data r h hs hd⟩
    · exact ⟨c0, _, _, hz, .send fuel data a r h hs hr hd⟩
  | sendTo fuel remote data r _ hs hr ih =>
    cases remote with
    | v4 a => exact ih.imp fun _ ⟨_, _, hz, h⟩ => ⟨_, _, hz, .sendTo fuel a data r h hs hr⟩
    | v6 _ _ => cases hs; exact ih
  | receive fuel buf buf' r _ hs hr ih => exact ih.imp fun _ ⟨_, _, hz, h⟩ => ⟨_, _, hz, .receive fuel buf buf' r h hs hr⟩
  | read b a dt _ ih => exact ih.imp fun _ ⟨_, _, hz, h⟩ => ⟨_, _, hz, .read b a dt h⟩
  | write b a dt _ hf ih => exact ih.imp fun _ ⟨_, _, hz, h⟩ => ⟨_, _, hz, .write b a dt h hf⟩
  | pass _ hp ih => exact ih.imp fun _ ⟨_, _, hz, h⟩ => ⟨_, _, hz, .pass h hp⟩

theorem told_object {n : Nat} (hn : n < 8) {last : Option SockAddr4} {port : U16} {up : Bool} {u : UdpSocket} {c : Chip}
    (h : UdpTold sched faults n last port up u c) : UdpObject n u c := by
  obtain ⟨c0, log, got, hz, h⟩ := told_sound h
  exact udpCalls_object hn (udpSound_calls hz h)

/-- … and since the socket was opened. -/
theorem told_opened {n : Nat} {last : Option SockAddr4} {port : U16} {u : UdpSocket} {c : Chip}
    (h : UdpTold sched faults n last port true u c) : ∃ u0 c0 log got, UdpOpened sched faults n u0 c0 ∧
      UdpSoundRun sched faults n u0 c0 log got u c := by
  generalize hup : true = up at h
  induction h with
  | new c hz => cases hup
  | @connect _ _ _ _ u u' d d' remote r hh hs hr ih =>
    cases r with
    | ok _ =>
      obtain ⟨c0, log, got, hz, h⟩ := told_sound hh
      exact ⟨_, _, _, _, .connect remote (udpSound_calls hz h) hs, .start⟩
    | err e =>
      obtain ⟨u0, c0, log, got, ho, h⟩ := ih hup
      exact ⟨u0, c0, _, _, ho, .connect remote _ h hs hr⟩
    | panic => rcases hr with ⟨_, h⟩ | ⟨_, h, _⟩ <;> cases h
    | fuel => rcases hr with ⟨_, h⟩ | ⟨_, h, _⟩ <;> cases h
  | bind p r hh hs hr ih =>
    obtain rfl := bind_sound hs hr
    obtain ⟨c0, log, got, hz, h⟩ := told_sound hh
    exact ⟨_, _, _, _, .bind p (udpSound_calls hz h) hs, .start⟩
  | setPort p r _ hs _ ih =>
    obtain ⟨u0, c0, log, got, ho, h⟩ := ih hup
    exact ⟨u0, c0, _, _, ho, .setPort p r h hs⟩
  | @send _ _ _ _ u d d' fuel data r _ hs hr ih =>
    obtain ⟨u0, c0, log, got, ho, h⟩ := ih hup
    rcases hd : u.destination with _ | a
    · exact ⟨u0, c0, _, _, ho, .sendNowhere fuel data r h hs hd⟩
    · exact ⟨u0, c0, _, _, ho, .send fuel data a r h hs hr hd⟩
  | sendTo fuel remote data r _ hs hr ih =>
    obtain ⟨u0, c0, log, got, ho, h⟩ := ih hup
    cases remote with
    | v4 a => exact ⟨u0, c0, _, _, ho, .sendTo fuel a data r h hs hr⟩
    | v6 _ _ => cases hs; exact ⟨u0, c0, _, _, ho, h⟩
  | receive fuel buf buf' r _ hs hr ih =>
    obtain ⟨u0, c0, log, got, ho, h⟩ := ih hup
    exact ⟨u0, c0, _, _, ho, .receive fuel buf buf' r h hs hr⟩
  | read b a dt _ ih =>
    obtain ⟨u0, c0, log, got, ho, h⟩ := ih hup
    exact ⟨u0, c0, _, _, ho, .read b a dt h⟩
  | write b a dt _ hf ih =>
    obtain ⟨u0, c0, log, got, ho, h⟩ := ih hup
    exact ⟨u0, c0, _, _, ho, .write b a dt h hf⟩
  | pass _ hp ih =>
    obtain ⟨u0, c0, log, got, ho, h⟩ := ih hup
    exact ⟨u0, c0, _, _, ho, .pass h hp⟩

/-- Nothing is waiting to be sent on an open socket between two calls. -/
theorem told_idle {n : Nat} (hn : n < 8) {last : Option SockAddr4} {port : U16} {u : UdpSocket} {c : Chip}
    (h : UdpTold sched faults n last port true u c) :
    (c.socks n).proto ≠ 1 ∧ (c.socks n).txRd = (c.socks n).txLimit := by
  obtain ⟨u0, c0, log, got, ho, h⟩ := told_opened h
  obtain ⟨A, h0⟩ := opened_inv hn ho
  obtain ⟨_, _, sent, ds, _, _, h2⟩ := udpRun_inv hn h0 (udpSound_run hn ho h)
  exact ⟨by rw [h2.idle.base.mode]; decide, h2.idle.base.rd⟩

/-- What `send_to` does, with any outcome. -/
theorem sendTo_left {n : Nat} (hn : n < 8) {u u' : UdpSocket} {d d' : Device Chip H} {fuel : Nat} {a : SockAddr4}
    {data : List U8} {r : Res (NbError (UdpSocketError E)) Unit} (ho : UdpObject n u d.bus)
    (hi : (d.bus.socks n).proto ≠ 1 ∧ (d.bus.socks n).txRd = (d.bus.socks n).txLimit)
    (h : Device.udpSendTo (Chip.dev sched faults).bus fuel (.v4 a) data (u, d) = (r, (u', d'))) :
    (d'.bus.socks n).srcPort = (d.bus.socks n).srcPort ∧ SentAs n (wire a) (d.bus.socks n).srcPort d.bus d'.bus := by
  have key := (udp_sendTo (sched := sched) (faults := faults) hn
    (P := LeftNone (d.bus.socks n).srcPort (d.bus.socks n).packets (d.bus.socks n).sources)
    (P' := LeftAs (wire a) (d.bus.socks n).srcPort (d.bus.socks n).packets (d.bus.socks n).sources)
    (R := fun s => s.srcPort = (d.bus.socks n).srcPort ∧ ∃ ps, s.packets = (d.bus.socks n).packets ++ ps ∧
      (∀ p ∈ ps, (p.ip, p.port) = wire a) ∧
      s.sources = (d.bus.socks n).sources ++ List.replicate ps.length (d.bus.socks n).srcPort)
    u ho.sock fuel data a (stable_leftNone _ _ _) ?_ ?_ ?_).run (u, d.bus)
    ⟨rfl, ⟨hi.1, hi.2, rfl, rfl, rfl⟩, ho.coherent⟩
  · unfold Device.udpSendTo at h
    rw [onSockBus_run h] at key
    cases r with
    | ok _ => exact ⟨key.2.1.src, key.2.1.out⟩
    | err e => exact key.1
    | panic => exact key.1
    | fuel => exact key.1
  · rintro s x v hx h1 h2 ⟨a1, a2, a3, a4, a5⟩
    refine ⟨?_, a2, ?_, a4, a5⟩
    · unfold Sock.proto setMem
      dsimp only
      rw [if_neg (fun e => by subst e; exact absurd hx (by decide))]
      exact a1
    · unfold Sock.srcPort setMem
      dsimp only
      rw [if_neg (fun e => by subst e; exact absurd hx (by decide)), if_neg (fun e => by subst e; exact absurd hx (by decide))]
      exact a3
  · rintro s ⟨a1, a2, a3, a4, a5⟩
    exact ⟨a3, [], by rw [a4, List.append_nil], nofun, by rw [a5]; exact (List.append_nil _).symm⟩
  · refine ((sendAll_leftAs hn { u with destination := some a } ho.sock fuel data).pre ?_).exc ?_
    · rintro c ⟨⟨a1, a2, a3, a4, a5⟩, a6⟩
      exact ⟨a6, a3, [], by rw [a4, List.append_nil], nofun, by rw [a5]; exact (List.append_nil _).symm⟩
    · exact fun c hc => ⟨hc.src, hc.out⟩

/-- C84, what is remembered: as long as no call returns a bus error, the socket object knows the address and the port named
last, and these are in the chip's destination registers and, once the socket is open, in its source port register. -/
theorem C84_told {n : Nat} (hn : n < 8) {last : Option SockAddr4} {port : U16} {up : Bool} {u : UdpSocket} {c : Chip}
    (h : UdpTold sched faults n last port up u c) :
    u.destination = last ∧ u.port = port ∧ (∀ a, last = some a → (c.socks n).dest = wire a) ∧
    (up = true → (c.socks n).srcPort = be port.toNat) := by
  suffices H : u.destination = last ∧ u.port = port ∧ (up = true → (c.socks n).srcPort = be port.toNat) from
    ⟨H.1, H.2.1, fun a ha => (told_object hn h).coherent a (H.1.trans ha), H.2.2⟩
  induction h with
  | new c hz =>
    refine ⟨rfl, ?_, nofun⟩
    apply BitVec.eq_of_toNat_eq
    show (BitVec.ofNat 16 49849 + BitVec.setWidth 16 (BitVec.ofNat 8 n)).toNat = _
    simp only [BitVec.toNat_add, BitVec.toNat_setWidth, BitVec.toNat_ofNat]
    omega
  | @connect _ _ _ _ u u' d d' remote r hh hs hr ih =>
    cases remote with
    | v6 _ _ =>
      cases hs
      exact ih
    | v4 a =>
      obtain rfl := connect_sound hs hr
      obtain ⟨_, _, h3, _, _, h6⟩ := C31_connect_partial hn a u u' (told_object hn hh).sock d d' hs
      rw [h6]
      exact ⟨rfl, ih.2.1, fun _ => by rw [← ih.2.1]; exact h3⟩
  | @bind _ _ _ _ u u' d d' p r hh hs hr ih =>
    obtain rfl := bind_sound hs hr
    obtain ⟨_, _, h3, _, _, _, h7⟩ := C31_bind hn p u u' (told_object hn hh).sock d d' hs
    rw [h7]
    exact ⟨ih.1, rfl, fun _ => h3⟩
  | setPort p r hh hs hr ih =>
    obtain ⟨rfl, rfl⟩ := setPort_sound hs hr
    exact ⟨ih.1, rfl, fun _ => setPort_srcPort hn (told_object hn hh).sock hs⟩
  | @send _ _ _ _ u d d' fuel data r hh hs hr ih =>
    refine ⟨ih.1, ih.2.1, fun hu => (Eq.trans ?_ (ih.2.2 hu))⟩
    have hm := (moves_sendAll (B := (Chip.dev sched faults).bus) u fuel data).run d.bus
    unfold Device.udpSend at hs
    rw [onBus_run hs, (told_object hn hh).sock] at hm
    exact (send_leftAs hn hm (K := (d.bus.socks n).packets) (L := (d.bus.socks n).sources)
      ⟨rfl, rfl, [], (List.append_nil _).symm, nofun, (List.append_nil _).symm⟩).src
  | @sendTo _ _ _ up u u' d d' fuel remote data r hh hs hr ih =>
    cases remote with
    | v6 _ _ =>
      cases hs
      exact ih
    | v4 a =>
      refine ⟨by rw [sendTo_sound hs (not_busy hr)]; rfl, by rw [sendTo_sound hs (not_busy hr)]; exact ih.2.1, ?_⟩
      rintro rfl
      exact (sendTo_left hn (told_object hn hh) (told_idle hn hh) hs).1.trans (ih.2.2 rfl)
  | receive fuel buf buf' r hh hs hr ih =>
    exact ⟨ih.1, ih.2.1, fun hu => (receive_srcPort hn (told_object hn hh).sock hs).trans (ih.2.2 hu)⟩
  | @read _ _ _ u c b a dt hh ih =>
    refine ⟨ih.1, ih.2.1, fun hu => Eq.trans ?_ (ih.2.2 hu)⟩
    exact (stable_mem (fun m => [m 0x04, m 0x05] = (c.socks n).srcPort)).evolves ((Chip.readFrame_evolves c b a dt).socks n) rfl
  | @write _ _ _ u c b a dt hh hf ih =>
    refine ⟨ih.1, ih.2.1, fun hu => Eq.trans ?_ (ih.2.2 hu)⟩
    exact foreign_keep (sched := sched) (faults := faults) (stable_mem fun m => [m 0x04, m 0x05] = (c.socks n).srcPort) hf c rfl
  | @pass _ _ _ u c c' hh hp ih =>
    refine ⟨ih.1, ih.2.1, fun hu => Eq.trans ?_ (ih.2.2 hu)⟩
    exact (stable_mem (fun m => [m 0x04, m 0x05] = (c.socks n).srcPort)).evolves (hp.evolves.socks n) rfl

/-- C84, `send`: however it ends, what leaves meanwhile goes to the address named last, from the port named last. -/
theorem C84_send {n : Nat} (hn : n < 8) {a : SockAddr4} {port : U16} {u : UdpSocket} {d d' : Device Chip H}
    (h : UdpTold sched faults n (some a) port true u d.bus) (fuel : Nat) (data : List U8)
    (r : Res (NbError (UdpSocketError E)) Unit)
    (hs : Device.udpSend (Chip.dev sched faults).bus fuel u data d = (r, d')) :
    SentAs n (wire a) (be port.toNat) d.bus d'.bus := by
  obtain ⟨h1, h2, h3, h4⟩ := C84_told hn h
  have hm := (moves_sendAll (B := (Chip.dev sched faults).bus) u fuel data).run d.bus
  unfold Device.udpSend at hs
  rw [onBus_run hs, (told_object hn h).sock] at hm
  exact (send_leftAs hn hm (K := (d.bus.socks n).packets) (L := (d.bus.socks n).sources)
    ⟨h3 a rfl, h4 rfl, [], (List.append_nil _).symm, nofun, (List.append_nil _).symm⟩).out

/-- C84, `send_to`: however it ends, what leaves meanwhile goes to the address given, from the port named last. -/
theorem C84_send_to {n : Nat} (hn : n < 8) {last : Option SockAddr4} {a : SockAddr4} {port : U16} {u u' : UdpSocket}
    {d d' : Device Chip H} (h : UdpTold sched faults n last port true u d.bus) (fuel : Nat) (data : List U8)
    (r : Res (NbError (UdpSocketError E)) Unit)
    (hs : Device.udpSendTo (Chip.dev sched faults).bus fuel (.v4 a) data (u, d) = (r, (u', d'))) :
    SentAs n (wire a) (be port.toNat) d.bus d'.bus := by
  have := (sendTo_left hn (told_object hn h) (told_idle hn h) hs).2
  rw [(C84_told hn h).2.2.2 rfl] at this
  exact this

/-- A UDP socket is bound to port 99, connected to A, and sends; it sends to B, and then sends again. -/
def toldBound : UdpSocket × Device Chip Unit :=
  (Device.udpBind (Chip.dev emitSched noFaults).bus 99 (demoUdp, demoDevice)).2
def toldConnected : UdpSocket × Device Chip Unit :=
  (Device.udpConnect (Chip.dev emitSched noFaults).bus (.v4 addrA) toldBound).2
def toldSent : Device Chip Unit :=
  (Device.udpSend (Chip.dev emitSched noFaults).bus 9 toldConnected.1 [1] toldConnected.2).2
def toldSentTo : UdpSocket × Device Chip Unit :=
  (Device.udpSendTo (Chip.dev emitSched noFaults).bus 9 (.v4 addrB) [2] (toldConnected.1, toldSent)).2

/-- The hypotheses of C84 are met by this history, and the packets are as it says. -/
example :
    let r := Device.udpSend (Chip.dev emitSched noFaults).bus 9 toldSentTo.1 [3] toldSentTo.2
    UdpTold emitSched noFaults 0 (some addrB) 99 true toldSentTo.1 toldSentTo.2.bus ∧ r.1 = .ok () ∧
    (r.2.bus.socks 0).packets = [⟨[10, 0, 0, 1], [0, 53], [1], true⟩, ⟨[10, 9, 9, 9], [0, 99], [2], true⟩,
      ⟨[10, 9, 9, 9], [0, 99], [3], true⟩] ∧
    (r.2.bus.socks 0).sources = [[0, 99], [0, 99], [0, 99]] := by
  refine ⟨?_, by decide +kernel, by decide +kernel, by decide +kernel⟩
  have h1 : UdpTold emitSched noFaults 0 none 99 true toldBound.1 toldBound.2.bus :=
    .bind (H := Unit) (d := demoDevice) 99 (.ok ()) (.new _ powerUp_sizes) (run_eq (by decide +kernel)) (.inl ⟨(), rfl⟩)
  have h2 : UdpTold emitSched noFaults 0 (some addrA) 99 true toldConnected.1 toldConnected.2.bus :=
    .connect (.v4 addrA) (.ok ()) h1 (run_eq (by decide +kernel)) (.inl ⟨(), rfl⟩)
  have h3 : UdpTold emitSched noFaults 0 (some addrA) 99 true toldConnected.1 toldSent.bus :=
    .send 9 [1] (.ok ()) h2 (run_eq (by decide +kernel)) (.inl ⟨(), rfl⟩)
  exact .sendTo 9 (.v4 addrB) [2] (.ok ()) h3 (run_eq (by decide +kernel)) (.inl ⟨(), rfl⟩)

/-- Why bus errors are excluded: `bind` to port 7 fails, and the next datagram still leaves from port 99 although the object
says 7. -/
theorem C84_after_bus_error :
    let B := (Chip.dev emitSched (faultAt 15)).bus
    let r0 := Device.udpConnect B (.v4 addrA) (Device.udpBind B 99 (demoUdp, demoDevice)).2
    let r1 := Device.udpBind B 7 r0.2
    let r2 := Device.udpSend B 9 r1.2.1 [1] r1.2.2
    r0.1 = .ok () ∧ r1.1 = .err (.other ()) ∧ r1.2.1.getPort = 7 ∧ r2.1 = .ok () ∧
      (r2.2.bus.socks 0).packets = [⟨[10, 0, 0, 1], [0, 53], [1], true⟩] ∧ (r2.2.bus.socks 0).sources = [[0, 99]] := by
  decide +kernel

end W5500.Props
