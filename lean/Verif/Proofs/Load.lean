import Verif.Proofs.Serve
import Verif.Proofs.Fill
import Verif.Proofs.Exchange
import Verif.Proofs.Cost
import Verif.Proofs.ChipUdpRx
/-! # How much arrives while a datagram is received -/

namespace W5500.Spec
open W5500 socketn Sock
variable {E ε α H : Type} {sched : Nat → List (Nat × Act)} {faults : Nat → Option (E × Nat)}

theorem moves_recvTail {W : Type} {B : Bus W E} (u : UdpSocket) (l v : Nat) (p : U16) (h : UdpHeader) :
    MovesOn B (GetFrames u.socket) (fun s => s.2) (recvTail B u l v p h) := by
  unfold recvTail Socket.setRxReadPointer Socket.command Socket.resetInterrupt
  moves
  · exact MovesOn.write (.rd _ _)
  · exact MovesOn.write .recv
  · exact MovesOn.write (.ir _)

theorem filled_recvHead {n : Nat} (hn : n < 8) {u : UdpSocket} (hu : u.socket = sockOf n) {K : List Packet} {A : List U8} {z : Nat}
    {qs : List Dgram} {fuel l : Nat} {x : Nat × U16 × UdpHeader} {c c' : Chip} (hc : At n (UdpIdle K A z qs) c)
    (h : recvHead (Chip.dev sched faults).bus fuel u l c = (.ok x, c')) :
    ∃ t a, c.clock ≤ t ∧ c'.clock = t + 14 ∧ a ≤ A.length + x.1 ∧ Filled sched n t a c' := by
  have hst := (stable_udpIdle K A z qs)
  have hlt : Chip.Ticks sched (fun x => c.clock ≤ x.clock) :=
    ⟨fun x h => by rw [Chip.tick_clock]; exact Nat.le_succ_of_le h, fun x i h => h⟩
  unfold recvHead Socket.hasInterrupt at h
  obtain ⟨_, c1, h1, h⟩ := M.bind_eq_ok.mp h
  have hc1 := (hs_checkStatus (sched := sched) (faults := faults) hn hst u hu).ok hc h1
  rw [hu] at h
  obtain ⟨b, c2, h2, h⟩ := M.bind_eq_ok.mp h
  have hc2 := (Hoare.mapErr (f := NbError.ofBus) (.bind (hs_read1' (sched := sched) (faults := faults) hn hst _) fun x =>
    .pure (Q := fun _ => At n (UdpIdle K A z qs)) fun _ h => h)).ok hc1 h2
  have hk2 : c.clock ≤ c2.clock := by
    unfold UdpSocket.checkStatus Socket.getStatus at h1
    obtain ⟨st, c1', g1, g2⟩ := M.bind_eq_ok.mp h1
    have e1 : c.clock ≤ c1'.clock := (hlt.read1 (faults := faults) _ _).ok (Nat.le_refl _) (M.mapErr_eq_ok.mp g1)
    have e : c1' = c1 := by
      generalize Status.tryFrom st = o at g2
      rcases o with _ | o
      · cases g2
      · cases o <;> first | (cases g2; rfl) | cases g2
    obtain ⟨_, _, g3, g4⟩ := M.bind_eq_ok.mp (M.mapErr_eq_ok.mp h2)
    cases g4
    exact (hlt.read1 (faults := faults) _ _).ok (e ▸ e1) g3
  split at h
  · cases h
  obtain ⟨v, c3, h3, h⟩ := M.bind_eq_ok.mp h
  obtain ⟨t, a, e0, e1, e2, e3⟩ := filled_receiveSize hn (L := A.length) (stable_udpIdle K A z qs) (fun s h => h.idle.rx.core.rxFits)
    (fun s h => by rw [h.idle.rx.core.arrived, List.length_append, Sock.queue_length]) hc2 (M.mapErr_eq_ok.mp h3)
  split at h
  · cases h
  split at h
  · cases h
  obtain ⟨p, c4, h4, h⟩ := M.bind_eq_ok.mp h
  obtain ⟨hd, c5, h5, h⟩ := M.bind_eq_ok.mp h
  have h4 := M.mapErr_eq_ok.mp h4
  have h5 := M.mapErr_eq_ok.mp h5
  unfold Socket.getRxReadPointer at h4
  have k4 := (Chip.read2_clock (sched := sched) (faults := faults) _ _ c3.clock).ok (s := c3) rfl h4
  have k5 := (Chip.readBuf_clock (sched := sched) (faults := faults) _ _ _ c4.clock).ok (s := c4) rfl h5
  have f5 := (filled_ticks.readBuf (faults := faults) _ _ _).ok ((filled_ticks.read2 (faults := faults) _ _).ok e3 h4) h5
  generalize UdpHeader.fromArray hd = o at h
  cases o with
  | none => cases h
  | some o =>
    cases h
    exact ⟨t, a, Nat.le_trans hk2 e0, by rw [k5, k4, e1]; rfl, e2, f5⟩

theorem co_recvTail {W : Type} {B : Bus W E} {g : Meter W} (hB : g.On B) (u : UdpSocket) (l v L : Nat) (p : U16) (h : UdpHeader) :
    CostsB g L 4 (L + 4) (recvTail B u l v p h) := by
  unfold recvTail
  exact .le (.bind (.withPrefix _ (.mapErr (co_readSlice hB _ _))) fun _ =>
      .bind (.onSnd (.mapErr (co_setRxRd hB _ _))) fun _ => .bind (.onSnd (.mapErr (co_command hB _ _))) fun _ =>
      .bind (.onSnd (.mapErr (co_resetInterrupt hB _ _))) fun _ => .pure _) (by omega) (by omega)

/-- What waits after a successful `receive` has come while it was running. -/
theorem receive_leaves {n : Nat} (hn : n < 8) (hf : ∀ i, faults i = none) {u : UdpSocket} (hu : u.socket = sockOf n) {K : List Packet}
    {A : List U8} {z : Nat} {qs : List Dgram} {fuel : Nat} {buf buf' : List U8} {x : Nat × SockAddr} {d d' : Device Chip H}
    (hi : At n (UdpIdle K A z qs) d.bus)
    (h : Device.udpReceive (Chip.dev sched faults).bus fuel u (buf, d) = (.ok x, (buf', d'))) :
    ∃ t, d.bus.clock ≤ t ∧ t ≤ d'.bus.clock ∧ d'.bus.clock ≤ t + (buf.length + 18) ∧
      (d'.bus.socks n).rsr.toNat ≤ load sched n t (d'.bus.clock - t) := by
  unfold Device.udpReceive at h
  have h := onSockBus_run h
  obtain ⟨y, ⟨b1, c1⟩, h, hy⟩ := M.bind_eq_ok.mp h
  cases hy
  rw [receive_split] at h
  obtain ⟨p, ⟨b2, c2⟩, h0, h2⟩ := M.bind_eq_ok.mp h
  obtain ⟨h1, e⟩ := M.onSnd_eq_ok.mp h0
  dsimp only at h1 e
  clear h0 h
  subst e
  obtain ⟨t, a, k0, k1, k2, k3⟩ := filled_recvHead hn hu hi h1
  obtain ⟨dg, rest, more, _, hw, g1, g2, g3, g4, g5⟩ :=
    (udp_recvHead (sched := sched) (faults := faults) hn u hu K A z qs _ fuel buf.length).ok (s := d.bus) ⟨hi, rfl⟩ h1
  obtain ⟨q1, q2, q3⟩ := p
  dsimp only at g1 g2 g3 g4 k2 h2
  subst g1
  have hws : ∀ x ∈ dg :: rest, x.Wf := by
    obtain ⟨m', hq, _⟩ := g5.1.queue
    exact fun x hx => hq x (List.mem_append_left _ hx)
  have hend := (udp_recvTail (sched := sched) (faults := faults) hn u hu K A z dg rest hws q2 q3 g3 g4 buf).ok (s := (buf, c2))
    ⟨rfl, g2 ▸ g5⟩ h2
  have hcost := ((co_recvTail (Meter.chip_on sched faults) u buf.length (encAll (dg :: rest)).length buf.length q2 q3).run (buf, c2)
    (Nat.le_refl _)).1.2
  have hreach := (moves_recvTail (B := (Chip.dev sched faults).bus) u buf.length (encAll (dg :: rest)).length q2 q3).run (buf, c2)
  rw [h2] at hcost hreach
  rw [hu] at hreach
  have hfill := reach_ticks hf filled_ticks (fun b ad d hfr i hi c hc => filled_poke hn hfr i hi c hc) hreach k3
  have ha := congrArg List.length hend.2.idle.rx.core.arrived
  rw [List.length_append, List.length_append, Sock.queue_length] at ha
  have hlate := hfill.late
  have := hfill.arrived
  dsimp only at this hcost ha hlate
  have hcost : d'.bus.clock ≤ c2.clock + (buf.length + 4) := hcost
  exact ⟨t, k0, hlate, by omega, by omega⟩

/-! ## Sending leaves the RX side alone -/

/-- The write frames of `send_to`. -/
inductive ToFrames (s : Socket) : U8 → U16 → List U8 → Prop where
  | send {b : U8} {a : U16} {d : List U8} : SendFrames s b a d → ToFrames s b a d
  | ip (d : List U8) : d.length = 4 → ToFrames s s.register 0x0C d
  | port (d : List U8) : d.length = 2 → ToFrames s s.register 0x10 d

theorem toFrames_sameRx {n : Nat} (hn : n < 8) {b : U8} {a : U16} {d : List U8} (h : ToFrames (sockOf n) b a d) (i : Nat)
    (hi : i < d.length) (c : Chip) : SameRx (c.socks n) ((c.poke (b.setWidth 5) (a + BitVec.ofNat 16 i) d[i]).socks n) := by
  cases h with
  | send h => exact sendFrames_sameRx hn h i hi c
  | ip d hd =>
    refine Chip.poke_reg' (P := SameRx (c.socks n)) hn ?_
    obtain rfl | rfl | rfl | rfl : i = 0 ∨ i = 1 ∨ i = 2 ∨ i = 3 := by omega
    all_goals exact ⟨rfl, rfl, rfl, .rfl⟩
  | port d hd =>
    refine Chip.poke_reg' (P := SameRx (c.socks n)) hn ?_
    obtain rfl | rfl : i = 0 ∨ i = 1 := by omega
    all_goals exact ⟨rfl, rfl, rfl, .rfl⟩

theorem moves_sendTo {W : Type} {B : Bus W E} (u : UdpSocket) (fuel : Nat) (remote : SockAddr) (data : List U8) (d : Device W H) :
    Reach B (ToFrames u.socket) d.bus (Device.udpSendTo B fuel remote data (u, d)).2.2.bus := by
  unfold Device.udpSendTo
  split
  · exact .refl _
  rename_i remote
  have hset : Reach B (ToFrames u.socket) d.bus (UdpSocket.setDestination B remote (u, d.bus)).2.2 ∧
      (UdpSocket.setDestination B remote (u, d.bus)).2.1.socket = u.socket := by
    have h1 : MovesOn B (ToFrames u.socket) id (u.socket.setDestinationIp B remote.ip) := MovesOn.write (.ip _ rfl)
    have h2 : MovesOn B (ToFrames u.socket) id (u.socket.setDestinationPort B remote.port) := MovesOn.write (.port _ rfl)
    unfold UdpSocket.setDestination
    rw [M.bind_ok (show M.get (u, d.bus) = (.ok (u, d.bus), (u, d.bus)) from rfl)]
    dsimp only
    split
    · have r1 := h1.run d.bus
      rw [M.bind_def, M.mapErr_def]
      simp only [M.onSnd, M.zoom]
      generalize u.socket.setDestinationIp B remote.ip d.bus = r at r1 ⊢
      obtain ⟨_ | _ | _ | _, w1⟩ := r
      · have r2 := h2.run w1
        dsimp only
        rw [M.bind_def, M.mapErr_def]
        simp only [M.zoom]
        generalize u.socket.setDestinationPort B remote.port w1 = r at r2 ⊢
        obtain ⟨_ | _ | _ | _, w2⟩ := r
        all_goals exact ⟨r1.trans r2, rfl⟩
      all_goals exact ⟨r1, rfl⟩
    · exact ⟨.refl _, rfl⟩
  show Reach B (ToFrames u.socket) d.bus (UdpSocket.socketSendTo B fuel remote data (u, d.bus)).2.2
  unfold UdpSocket.socketSendTo
  rw [M.bind_def, M.mapErr_def]
  generalize UdpSocket.setDestination B remote (u, d.bus) = r at hset ⊢
  obtain ⟨_ | _ | _ | _, u1, w1⟩ := r
  · have h3 := (moves_sendAll (B := B) u1 fuel data).run w1
    rw [show u1.socket = u.socket from hset.2] at h3
    exact hset.1.trans (h3.mono fun _ _ _ => .send)
  all_goals exact hset.1

/-- ... so that it still is announced, or leaves room. -/
theorem sendTo_waits {n : Nat} (hn : n < 8) (hf : ∀ i, faults i = none) {m : Nat} {u u' : UdpSocket} (hu : u.socket = sockOf n)
    {fuel : Nat} {remote : SockAddr} {data : List U8} {r : Res (NbError (UdpSocketError E)) Unit} {d d' : Device Chip H}
    (h : Device.udpSendTo (Chip.dev sched faults).bus fuel remote data (u, d) = (r, (u', d'))) (hd : Waits m (d.bus.socks n)) :
    Waits m (d'.bus.socks n) := by
  have hr := moves_sendTo (B := (Chip.dev sched faults).bus) u fuel remote data d
  rw [h, hu] at hr
  exact reach_ticks (I := At n (Waits m)) hf (stable_waits m).stays.ticks (fun b a d hfr i hi c hc => (toFrames_sameRx hn hfr i hi c).waits hc) hr hd

theorem sendTo_clock (hf : ∀ i, faults i = none) {u u' : UdpSocket} {fuel : Nat} {remote : SockAddr} {data : List U8}
    {r : Res (NbError (UdpSocketError E)) Unit} {d d' : Device Chip H}
    (h : Device.udpSendTo (Chip.dev sched faults).bus fuel remote data (u, d) = (r, (u', d'))) : d.bus.clock ≤ d'.bus.clock := by
  have hr := moves_sendTo (B := (Chip.dev sched faults).bus) u fuel remote data d
  rw [h] at hr
  exact reach_ticks (I := fun c => d.bus.clock ≤ c.clock) hf (clock_ticks _)
    (fun _ _ _ _ _ _ c hc => by rw [Chip.poke_clock]; exact hc) hr (Nat.le_refl _)

end W5500.Spec
