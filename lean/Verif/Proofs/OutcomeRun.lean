import Verif.Proofs.OutcomeUdp
/-! # Histories in which nothing stays unannounced -/

namespace W5500

/-- The write frames of receiving. -/
inductive RecvFrames (s : Socket) : U8 → U16 → List U8 → Prop where
  | rd (x y : U8) : RecvFrames s s.register 0x28 [x, y]
  | ir (x : U8) : RecvFrames s s.register 0x02 [x]
  | recv : RecvFrames s s.register 0x01 [0x40]

theorem moves_udpReceive' {W E : Type} {B : Bus W E} (u : UdpSocket) (fuel : Nat) :
    MovesOn B (RecvFrames u.socket) (fun s => s.2) (u.socketReceive B fuel) := by
  have h1 := moves_checkStatus (B := B) (RecvFrames u.socket) u
  have h2 := moves_receiveSize (B := B) (RecvFrames u.socket) u.socket fuel
  unfold UdpSocket.socketReceive Socket.hasInterrupt Socket.getRxReadPointer Socket.setRxReadPointer Socket.command
    Socket.resetInterrupt
  moves
  · exact MovesOn.write (.rd _ _)
  · exact MovesOn.write .recv
  · exact MovesOn.write (.ir _)

theorem moves_deviceUdpReceive' {W E H : Type} {B : Bus W E} (u : UdpSocket) (fuel : Nat) :
    MovesOn B (RecvFrames u.socket) (fun s => s.2.bus)
      (Device.udpReceive B fuel u : M (List U8 × Device W H) (NbError (UdpSocketError E)) (Nat × SockAddr)) :=
  .onSockBus (.bind (moves_udpReceive' u fuel) fun _ => .pure _)

end W5500

namespace W5500.Spec
open W5500 socketn Sock
variable {E ε α : Type} {sched : Nat → List (Nat × Act)} {faults : Nat → Option (E × Nat)}

/-- Nothing is waiting, and nothing is announced or to be announced. -/
structure Rest (s : Sock) : Prop where
  mode : s.proto ≠ 1
  sent : s.txRd = s.txLimit
  silent : s.Silent

theorem stable_rest : StableS Rest := by
  intro s a h
  have hs := h.silent
  obtain ⟨f1, _⟩ := act_flags h.mode a fun _ _ => h.sent
  rw [silent_iff] at hs
  refine ⟨by rw [act_proto]; exact h.mode, by rw [(act_idle h.mode h.sent a).1, act_txLimit]; exact h.sent, ?_⟩
  rw [silent_iff, f1 3 (.inl rfl), f1 4 (.inr rfl)]
  exact hs

theorem Rest.ir {s : Sock} (h : Rest s) (x : U8) : Rest { s with ir := s.ir &&& ~~~x } := by
  refine ⟨h.mode, h.sent, fun i hi => ⟨?_, (h.silent i hi).2⟩⟩
  show (s.ir &&& ~~~x).getLsbD i = false
  rw [BitVec.getLsbD_and, (h.silent i hi).1, Bool.false_and]

theorem Rest.setMem {s : Sock} (h : Rest s) {a : U16} (x : U8) (ha : a ≠ 0) : Rest (s.setMem a x) := by
  refine ⟨?_, h.sent, h.silent⟩
  have : (s.setMem a x).proto = s.proto := by
    show (if (0x00 : U16) = a then x else s.mem 0x00).toNat % 16 = _
    rw [if_neg (Ne.symm ha)]
    rfl
  rw [this]
  exact h.mode

theorem Rest.open {s : Sock} (h : Rest s) : Rest (s.command 0x01) :=
  ⟨h.mode, rfl, fun i hi => ⟨(h.silent i hi).1, by
    show (0 : U8).getLsbD i = false
    rcases hi with rfl | rfl <;> decide⟩⟩

theorem hs_clearRest {n : Nat} (hn : n < 8) (x : U8) :
    Hoare (At n Rest) ((Chip.dev sched faults).bus.write (sockOf n).register 0x02 [x]) (fun _ => At n Rest) (At n Rest) :=
  (hs_write1 (Q := Rest) hn stable_rest 0x02 x fun _ h => h.ir x).exc fun _ h => h.elim id id

theorem udp_openRest {n : Nat} (hn : n < 8) (u : UdpSocket) (hu : u.socket = sockOf n) :
    Hoare (At n Rest) (u.open (Chip.dev sched faults).bus) (fun _ => At n Rest) (At n Rest) := by
  have hP := stable_rest
  unfold UdpSocket.open
  rw [hu]
  refine .bind (.exc (hs_write1 (Q := Rest) hn hP 0x01 0x10 (fun s h => ⟨h.mode, h.sent, h.silent⟩))
    fun _ h => h.elim id id) fun _ => ?_
  refine .bind (hs_clearRest hn _) fun _ => ?_
  refine .bind (.post (hs_store hn hP _ _ (by simp [toBeBytes]) ?_ ?_) fun _ _ h => h.1) fun _ => ?_
  · intro i hi
    rcases index_two (by rfl) hi with rfl | rfl <;> rfl
  · rintro s i x hi h
    rcases index_two (by rfl) hi with rfl | rfl
    all_goals exact h.setMem _ (by decide)
  refine .bind (.exc (hs_write1 (Q := Rest) hn hP 0x00 0x02 fun s h => ⟨?_, h.sent, h.silent⟩) fun _ h => h.elim id id) fun _ => ?_
  · show (2 : Nat) ≠ 1
    decide
  refine .bind (.post (hs_store hn hP _ _ (by simp) ?_ ?_) fun _ _ h => h.1) fun _ => ?_
  · intro i hi
    obtain rfl := index_one (by rfl) hi
    rfl
  · rintro s i x hi h
    obtain rfl := index_one (by rfl) hi
    exact h.setMem _ (by decide)
  exact .exc (hs_write1 (Q := Rest) hn hP 0x01 0x01 fun s h => h.open) fun _ h => h.elim id id

theorem reach_recvRest {n : Nat} (hn : n < 8) {c c' : Chip}
    (h : Reach (Chip.dev sched faults).bus (RecvFrames (sockOf n)) c c') (hc : Rest (c.socks n)) : Rest (c'.socks n) := by
  refine h.induct (I := At n Rest) (fun w b a d hi => (stable_rest.at n) _ _ (Chip.readFrame_evolves w b a d) hi) ?_ hc
  intro w b a d hf hw
  have := (Chip.hoare_write (sched := sched) (faults := faults) (I := fun _ => At n Rest) b a d
    (fun _ _ _ => stable_rest.at n) (fun i hi c hc => by
      cases hf with
      | rd x y =>
        rw [Chip.poke_reg hn]
        show Rest _
        rw [Chip.setSock_self]
        rcases index_two (by rfl) hi with rfl | rfl
        · exact Rest.setMem (a := 0x28) hc _ (by decide)
        · exact Rest.setMem (a := 0x29) hc _ (by decide)
      | ir x =>
        rw [Chip.poke_reg hn]
        show Rest _
        rw [Chip.setSock_self]
        obtain rfl := index_one (by rfl) hi
        exact Rest.ir hc _
      | recv =>
        rw [Chip.poke_reg hn]
        show Rest _
        rw [Chip.setSock_self]
        obtain rfl := index_one (by rfl) hi
        have h : Rest (c.socks n) := hc
        exact ⟨h.mode, h.sent, h.silent⟩)).run w hw
  unfold Bus.write at this
  generalize (Chip.dev sched faults).bus.writeFrame w b a d = r at this
  obtain ⟨_ | _ | _ | _, c'⟩ := r
  · exact this
  all_goals exact this.elim fun _ h => h.2

theorem Clean.rest {d : List U8 × List U8} {K : List Packet} {A : List U8} {z : Nat} {s : Sock} (h : Clean d K A z s) : Rest s :=
  ⟨by rw [h.1.1.base.mode]; omega, h.1.1.base.rd, h.2⟩

theorem Reports.truthful {n : Nat} {d : List U8 × List U8} {K : List Packet} {A : List U8} {z : Nat}
    {e : NbError (UdpSocketError E)} {c c' : Chip} (hc : (c.socks n).packets = K) (h : Reports n d K A z e c') (ho : Own e) :
    Truthful n c (.err e) c' ∧ Rest (c'.socks n) := by
  obtain ⟨ps, h1, ⟨rfl, data, h2⟩ | ⟨h2, h3⟩⟩ := h ho
  · exact ⟨⟨ps, h1, .inr ⟨rfl, _, rfl, by rw [hc]; exact h2.1.1.base.out⟩⟩, Clean.rest h2⟩
  · exact ⟨⟨ps, h1, .inl ⟨fun e => h2 (by cases e; rfl), by rw [hc]; exact h3.1.1.base.out⟩⟩, Clean.rest h3⟩

variable {H : Type}

/-- `send`. -/
theorem send_truthful {n : Nat} (hn : n < 8) (hp : Prompt sched n) {u : UdpSocket} (hu : u.socket = sockOf n) {K : List Packet}
    {A : List U8} {z : Nat} {qs : List Dgram} {d d' : Device Chip H} (hi : UdpIdle K A z qs (d.bus.socks n))
    (hs : (d.bus.socks n).Silent) (fuel : Nat) (data : List U8) {r : Res (NbError (UdpSocketError E)) Unit}
    (h : Device.udpSend (Chip.dev sched faults).bus fuel u data d = (r, d')) (hr : NbSound r) :
    Truthful n d.bus r d'.bus ∧ Rest (d'.bus.socks n) := by
  have := (udp_sendAllTells (sched := sched) (faults := faults) hn hp (d.bus.socks n).dest K A z u hu fuel data).run d.bus
    ⟨⟨hi.idle, hi.size⟩, hs⟩
  rw [onBus_run h] at this
  rcases hr with ⟨_, rfl⟩ | ⟨e, rfl, he⟩
  · obtain ⟨ps, h1, h2⟩ := this
    exact ⟨⟨ps, h1, .inl ⟨nofun, by rw [hi.idle.base.out]; exact h2.1.1.base.out⟩⟩, Clean.rest h2⟩
  · exact Reports.truthful hi.idle.base.out this he

theorem udp_sendToTells {n : Nat} (hn : n < 8) (hp : Prompt sched n) (u : UdpSocket) (hu : u.socket = sockOf n)
    (K : List Packet) (A : List U8) (z : Nat) (qs : List Dgram) (fuel : Nat) (data : List U8) (a : SockAddr4) :
    HoareE (fun s : UdpSocket × Chip => s.1 = u ∧ At n (fun s => UdpIdle K A z qs s ∧ Rest s) s.2 ∧ Coherent n u s.2)
      (UdpSocket.socketSendTo (Chip.dev sched faults).bus fuel a data)
      (fun _ s => ∃ ps : List Packet, (∀ q ∈ ps, q.delivered = true) ∧ At n (Clean (wire a) (K ++ ps) A z) s.2)
      (fun e s => Reports n (wire a) K A z e s.2) := by
  unfold UdpSocket.socketSendTo
  refine .bind (.ofErr (.mapErr (udp_setDestination hn ((stable_udpIdle K A z qs).and stable_rest)
    (fun s b x hb h1 h2 h => ⟨h.1.setMem b x (dest_indifferent hb h1 h2), h.2.setMem x (fun e => by subst e; revert hb; decide)⟩)
    u hu a)) (p := fun e => ¬ Own e) ?_ fun e s h ho => absurd ho h) fun _ => ?_
  · refine .mapErr' ?_
    unfold UdpSocket.setDestination
    errin
    all_goals exact .mapErr _ fun e ho => ho e rfl
  refine .bind (Q := fun d s => d.1 = { u with destination := some a } ∧ s.1 = { u with destination := some a } ∧
    At n (Clean (wire a) K A z) s.2) ⟨fun s h => ⟨h.1, h.1, ?_⟩⟩ fun d => ?_
  · refine ⟨⟨?_, h.2.1.1.size⟩, h.2.1.2.silent⟩
    have := h.2.1.1.idle
    rw [h.2.2] at this
    exact this
  refine .fact fun hd => ?_
  rw [hd]
  exact ((udp_sendAllTells hn hp (wire a) K A z { u with destination := some a } hu fuel data).onSnd' _).conseq (fun _ h => h)
    (fun _ _ h => h.2) fun _ _ h => h.2

/-- `send_to`. -/
theorem sendTo_truthful {n : Nat} (hn : n < 8) (hp : Prompt sched n) {u u' : UdpSocket} (hu : u.socket = sockOf n)
    {K : List Packet} {A : List U8} {z : Nat} {qs : List Dgram} {d d' : Device Chip H}
    (hi : UdpIdle K A z qs (d.bus.socks n)) (hc : Coherent n u d.bus) (hs : Rest (d.bus.socks n)) (fuel : Nat) (data : List U8)
    (a : SockAddr4) {r : Res (NbError (UdpSocketError E)) Unit}
    (h : Device.udpSendTo (Chip.dev sched faults).bus fuel (.v4 a) data (u, d) = (r, (u', d'))) (hr : NbSound r) :
    Truthful n d.bus r d'.bus ∧ Rest (d'.bus.socks n) := by
  have := (udp_sendToTells (sched := sched) (faults := faults) hn hp u hu K A z qs fuel data a).run (u, d.bus) ⟨rfl, ⟨hi, hs⟩, hc⟩
  unfold Device.udpSendTo at h
  rw [onSockBus_run h] at this
  rcases hr with ⟨_, rfl⟩ | ⟨e, rfl, he⟩
  · obtain ⟨ps, h1, h2⟩ := this
    exact ⟨⟨ps, h1, .inl ⟨nofun, by rw [hi.idle.base.out]; exact h2.1.1.base.out⟩⟩, Clean.rest h2⟩
  · exact Reports.truthful hi.idle.base.out this he

end W5500.Spec
