import Verif.Spec.Load
import Verif.Proofs.Exchange
import Verif.Proofs.ReadAll
import Verif.Proofs.Cost
import Verif.Proofs.TcpHistory
import Verif.Proofs.Failures
/-! # How much arrives while something is received -/

namespace W5500.Spec
open W5500 socketn Sock
variable {E ε α H : Type} {sched : Nat → List (Nat × Act)} {faults : Nat → Option (E × Nat)}

theorem load_mono {n t g g' : Nat} (h : g ≤ g') : load sched n t g ≤ load sched n t g' := by
  induction g' with
  | zero => rw [Nat.le_zero.mp h]; exact Nat.le_refl _
  | succ k ih =>
    rcases Nat.lt_or_ge g (k + 1) with h1 | h1
    · exact Nat.le_trans (ih (by omega)) (Nat.le_add_right _ _)
    · rw [Nat.le_antisymm h h1]; exact Nat.le_refl _

theorem push_arrived (s : Sock) (bs : List U8) : (s.push bs).arrived.length ≤ s.arrived.length + bs.length := by
  unfold Sock.push
  split
  · simp
  · simp

theorem act_arrived (s : Sock) (n : Nat) (a : Act) :
    (s.act a).arrived.length ≤ s.arrived.length + need n [(n, a)] := by
  cases a with
  | datagram d =>
    simp only [act, need]
    split
    · simpa using push_arrived s _
    · exact Nat.le_add_right _ _
  | arrive bs =>
    simp only [act, need]
    split
    · simpa using push_arrived s _
    · exact Nat.le_add_right _ _
  | frame f =>
    simp only [act, need]
    split
    · simpa using push_arrived s _
    · exact Nat.le_add_right _ _
  | transmit k => simp only [act]; split <;> exact Nat.le_add_right _ _
  | ack k => simp only [act]; split <;> exact Nat.le_add_right _ _
  | emit b => simp only [act]; split <;> exact Nat.le_add_right _ _
  | raise b => exact Nat.le_add_right _ _
  | status x => exact Nat.le_add_right _ _

theorem need_cons (n : Nat) (e : Nat × Act) (l : List (Nat × Act)) : need n (e :: l) = need n [e] + need n l := by
  obtain ⟨i, a⟩ := e
  cases a <;> simp [need]

theorem events_arrived {n : Nat} (l : List (Nat × Act)) (c : Chip) :
    ((l.foldl Chip.event c).socks n).arrived.length ≤ (c.socks n).arrived.length + need n l := by
  induction l generalizing c with
  | nil => exact Nat.le_refl _
  | cons e l ih =>
    rw [need_cons]
    have h1 : ((c.event e).socks n).arrived.length ≤ (c.socks n).arrived.length + need n [e] := by
      unfold Chip.event
      by_cases he : e.1 = n
      · rw [he, Chip.setSock_self]
        have := act_arrived (c.socks n) n e.2
        rw [← he] at this ⊢
        exact this
      · rw [Chip.setSock_other _ _ _ _ (Ne.symm he)]
        exact Nat.le_add_right _ _
    have h2 := ih (c.event e)
    rw [List.foldl_cons]
    omega

/-- At time `t`, `a` bytes had arrived; what has arrived since then has come since then. -/
structure Filled (sched : Nat → List (Nat × Act)) (n t a : Nat) (c : Chip) : Prop where
  late : t ≤ c.clock
  arrived : (c.socks n).arrived.length ≤ a + load sched n t (c.clock - t)

theorem filled_ticks {n t a : Nat} : Chip.Ticks sched (Filled sched n t a) := by
  refine ⟨fun c h => ?_, fun c i h => ⟨h.late, h.arrived⟩⟩
  have h2 := events_arrived (n := n) (sched c.clock) c
  refine ⟨by rw [Chip.tick_clock]; exact Nat.le_succ_of_le h.late, ?_⟩
  have e : c.clock + 1 - t = (c.clock - t) + 1 := by have := h.late; omega
  rw [Chip.tick_clock, e, load, show t + (c.clock - t) = c.clock by have := h.late; omega]
  have := h.arrived
  refine Nat.le_trans h2 ?_
  omega

/-- The write frames of receiving. -/
inductive GetFrames (s : Socket) : U8 → U16 → List U8 → Prop where
  | rd (x y : U8) : GetFrames s s.register 0x28 [x, y]
  | ir (x : U8) : GetFrames s s.register 0x02 [x]
  | recv : GetFrames s s.register 0x01 [0x40]

theorem getFrames_poke {n : Nat} (hn : n < 8) {b : U8} {ad : U16} {d : List U8} (h : GetFrames (sockOf n) b ad d) (i : Nat)
    (hi : i < d.length) (c : Chip) :
    ((c.poke (b.setWidth 5) (ad + BitVec.ofNat 16 i) d[i]).socks n).rxSize = (c.socks n).rxSize ∧
    ((c.poke (b.setWidth 5) (ad + BitVec.ofNat 16 i) d[i]).socks n).arrived = (c.socks n).arrived := by
  cases h with
  | rd x y =>
    refine Chip.poke_reg' (P := fun s => s.rxSize = (c.socks n).rxSize ∧ s.arrived = (c.socks n).arrived) hn ?_
    rcases index_two (by rfl) hi with rfl | rfl <;> exact ⟨rfl, rfl⟩
  | ir x =>
    refine Chip.poke_reg' (P := fun s => s.rxSize = (c.socks n).rxSize ∧ s.arrived = (c.socks n).arrived) hn ?_
    obtain rfl := index_one (by rfl) hi
    exact ⟨rfl, rfl⟩
  | recv =>
    refine Chip.poke_reg' (P := fun s => s.rxSize = (c.socks n).rxSize ∧ s.arrived = (c.socks n).arrived) hn ?_
    obtain rfl := index_one (by rfl) hi
    exact ⟨rfl, rfl⟩

theorem filled_poke {n t a : Nat} (hn : n < 8) {b : U8} {ad : U16} {d : List U8} (h : GetFrames (sockOf n) b ad d) (i : Nat)
    (hi : i < d.length) (c : Chip) (hc : Filled sched n t a c) :
    Filled sched n t a (c.poke (b.setWidth 5) (ad + BitVec.ofNat 16 i) d[i]) :=
  ⟨by rw [Chip.poke_clock]; exact hc.late, by rw [Chip.poke_clock, (getFrames_poke hn h i hi c).2]; exact hc.arrived⟩

/-- Reading the received size: the last two samples began at time `t`, when `a` bytes had arrived; the result includes them. -/
theorem filled_receiveSize {n L : Nat} (hn : n < 8) {P : Sock → Prop} (hP : StableS P) (hfit : ∀ s, P s → RxFits s)
    (hL : ∀ s, P s → s.arrived.length = L + s.rsr.toNat) {fuel : Nat} {v : U16}
    {c c' : Chip} (hc : At n P c) (h : (sockOf n).getReceiveSize (Chip.dev sched faults).bus fuel c = (.ok v, c')) :
    ∃ t a, c.clock ≤ t ∧ c'.clock = t + 4 ∧ a ≤ L + v.toNat ∧ Filled sched n t a c' := by
  induction fuel generalizing c with
  | zero => cases h
  | succ fuel ih =>
    have h0 := h
    unfold Socket.getReceiveSize at h
    obtain ⟨x, c1, h1, h⟩ := M.bind_eq_ok.mp h
    obtain ⟨y, c2, h2, h⟩ := M.bind_eq_ok.mp h
    have e1 := (Chip.read2_clock (sched := sched) (faults := faults) _ _ c.clock).ok (s := c) rfl h1
    have e2 := (Chip.read2_clock (sched := sched) (faults := faults) _ _ c1.clock).ok (s := c1) rfl h2
    split at h
    · rename_i hxy
      cases h
      have hone : (sockOf n).getReceiveSize (Chip.dev sched faults).bus 1 c = (.ok v, c') := by
        unfold Socket.getReceiveSize
        refine M.bind_eq_ok.mpr ⟨v, c1, h1, M.bind_eq_ok.mpr ⟨y, c', h2, ?_⟩⟩
        rw [if_pos hxy]
        rfl
      have hst : StableS (fun s => P s ∧ (c.socks n).Evolves s) := hP.and fun s a e => e.trans (.act s a)
      obtain ⟨_, s0, ⟨_, e⟩, _, hv⟩ := (hs_receiveSize (sched := sched) (faults := faults) hn hst (fun s h => hfit s h.1) 1).ok
        (s := c) ⟨hc, .refl _⟩ hone
      have hm := rsr_mono' (hfit _ hc) e
      have ha := hL _ hc
      have hF : Filled sched n c.clock (c.socks n).arrived.length c := ⟨Nat.le_refl _, Nat.le_add_right _ _⟩
      exact ⟨c.clock, _, Nat.le_refl _, by omega, by rw [ha, hv]; omega,
        (filled_ticks.read2 (faults := faults) _ _).ok ((filled_ticks.read2 (faults := faults) _ _).ok hF h1) h2⟩
    · have hst := hP.stays (sched := sched) (n := n) |>.ticks
      obtain ⟨t, a, h3, h4⟩ := ih ((hst.read2 (faults := faults) _ _).ok ((hst.read2 (faults := faults) _ _).ok hc h1) h2) h
      exact ⟨t, a, by omega, h4⟩

/-! ## TCP -/

/-- What the TCP `receive` does once it has the received size. -/
def tcpTail {W : Type} (B : Bus W E) (self : TcpSocket) (rxSize : Nat) : M (List U8 × W) (TcpSocketError E) Nat := do
  let dataLen := (← M.get).1.length
  let readLen := if rxSize > dataLen then dataLen else rxSize
  let readPointer ← M.onSnd (M.mapErr .other (self.socket.getRxReadPointer B))
  M.withPrefix readLen (M.mapErr .other (B.readSlice self.socket.rxBuffer readPointer))
  M.onSnd (M.mapErr .other
    (self.socket.setRxReadPointer B (readPointer + BitVec.ofNat 16 readLen)))
  M.onSnd (M.mapErr .other (self.socket.command B .receive))
  M.onSnd (M.mapErr .other (self.socket.resetInterrupt B .receive))
  pure readLen

theorem moves_tcpTail {W : Type} {B : Bus W E} (t : TcpSocket) (v : Nat) :
    MovesOn B (GetFrames t.socket) (fun s => s.2) (tcpTail B t v) := by
  unfold tcpTail Socket.getRxReadPointer Socket.setRxReadPointer Socket.command Socket.resetInterrupt
  moves
  all_goals first | exact .write (.rd _ _) | exact .write .recv | exact .write (.ir _)

theorem CostsB.withPrefix' {σ : Type} {g : Meter σ} {L t b : Nat} {m : M (List U8 × σ) ε α} (n : Nat) (h : CostsB g n t b m) :
    CostsB g L t b (M.withPrefix n m) := by
  constructor
  intro s hs
  unfold M.withPrefix
  split
  · have h1 := h.run (s.1.take n, s.2) (by rw [List.length_take]; omega)
    refine ⟨h1.1, ?_⟩
    have h2 := h1.2
    dsimp only at h2 ⊢
    rw [List.length_append, h2, List.length_take, List.length_drop]
    omega
  · exact ⟨.refl g s.2 t b, rfl⟩

theorem co_tcpTail {W : Type} {B : Bus W E} {g : Meter W} (hB : g.On B) (s : TcpSocket) (v L : Nat) :
    CostsB g L 5 (v + 6) (tcpTail B s v) := by
  unfold tcpTail
  refine .le (t := 0 + 5) (b := 0 + (v + 6)) (.bind .get fun x => ?_) (by omega) (by omega)
  dsimp only
  exact .le (.bind (.onSnd (.mapErr (co_rxRd hB _))) fun p => .bind (.withPrefix' _ (.mapErr (co_readSlice hB _ _))) fun _ =>
    .bind (.onSnd (.mapErr (co_setRxRd hB _ _))) fun _ => .bind (.onSnd (.mapErr (co_command hB _ _))) fun _ =>
    .bind (.onSnd (.mapErr (co_resetInterrupt hB _ _))) fun _ => .pure _) (by omega) (by split <;> omega)

/-- A TCP receive that returned `Ok` found RECV clear, or went on with the received size. -/
theorem recv_split {n fuel k : Nat} {b b' : List U8} {c c' : Chip}
    (h : TcpSocket.socketReceive (Chip.dev sched faults).bus fuel ⟨sockOf n⟩ (b, c) = (.ok k, (b', c'))) :
    ∃ x c1 y c2, (Chip.dev sched faults).bus.read1 (sockOf n).register STATUS c = (.ok x, c1) ∧
      (Chip.dev sched faults).bus.read1 (sockOf n).register INTERRUPT c1 = (.ok y, c2) ∧
      ((y.getLsbD 2 = false ∧ k = 0 ∧ c' = c2) ∨
      (y.getLsbD 2 = true ∧ ∃ v c3, Socket.getReceiveSize (Chip.dev sched faults).bus (sockOf n) fuel c2 = (.ok v, c3) ∧
        tcpTail (Chip.dev sched faults).bus ⟨sockOf n⟩ v.toNat (b, c3) = (.ok k, (b', c')))) := by
  unfold TcpSocket.socketReceive TcpSocket.socketIsConnected Socket.hasInterrupt Socket.getStatus at h
  obtain ⟨_, ⟨b1, c1⟩, h1, h⟩ := M.bind_eq_ok.mp h
  obtain ⟨h1, e1⟩ := M.onSnd_eq_ok.mp h1
  obtain ⟨x, _, h1, h1'⟩ := M.bind_eq_ok.mp h1
  rw [M.mapErr_eq_ok] at h1
  cases h1'
  cases e1
  split at h
  · cases h
  obtain ⟨f, ⟨b2, c2⟩, h2, h⟩ := M.bind_eq_ok.mp h
  obtain ⟨h2, e2⟩ := M.onSnd_eq_ok.mp h2
  rw [M.mapErr_eq_ok] at h2
  obtain ⟨y, _, h2, h2'⟩ := M.bind_eq_ok.mp h2
  cases h2'
  cases e2
  refine ⟨x, _, y, _, h1, h2, ?_⟩
  split at h
  · rename_i hf
    left
    simp only [pure, M.pure, Prod.mk.injEq, Res.ok.injEq] at h
    exact ⟨recv_bit (by simpa using hf), h.1.symm, h.2.2.symm⟩
  · rename_i hf
    right
    obtain ⟨v, ⟨b3, c3⟩, h3, h⟩ := M.bind_eq_ok.mp h
    obtain ⟨h3, e3⟩ := M.onSnd_eq_ok.mp h3
    rw [M.mapErr_eq_ok] at h3
    cases e3
    exact ⟨recv_bit' (by simpa using hf), v, c3, h3, h⟩

theorem tcpTail_len {n k v : Nat} {b b' : List U8} {c c' : Chip}
    (h : tcpTail (Chip.dev sched faults).bus ⟨sockOf n⟩ v (b, c) = (.ok k, (b', c'))) : k = min b.length v := by
  unfold tcpTail at h
  obtain ⟨s, s', h4, h⟩ := M.bind_eq_ok.mp h
  rw [M.get_eq_ok] at h4
  obtain ⟨rfl, rfl⟩ := h4
  dsimp only at h
  obtain ⟨_, _, _, h⟩ := M.bind_eq_ok.mp h
  obtain ⟨_, _, _, h⟩ := M.bind_eq_ok.mp h
  obtain ⟨_, _, _, h⟩ := M.bind_eq_ok.mp h
  obtain ⟨_, _, _, h⟩ := M.bind_eq_ok.mp h
  obtain ⟨_, _, _, h⟩ := M.bind_eq_ok.mp h
  simp only [pure, M.pure, Prod.mk.injEq, Res.ok.injEq] at h
  rw [← h.1]
  split <;> omega

theorem roomy_act {s : Sock} (a : Act) (ht : s.proto = 1) (hf : RxFits s) (h : s.Announced ∨ s.rsr.toNat < s.rxSize) :
    (s.act a).Announced ∨ (s.act a).rsr.toNat < (s.act a).rxSize := by
  rcases h with h | h
  · exact .inl (announced_act a h)
  have other : (∀ bs, a ≠ .arrive bs) → (∀ bits, a ≠ .raise bits) →
      (s.act a).Announced ∨ (s.act a).rsr.toNat < (s.act a).rxSize := fun e1 e2 =>
    let ⟨_, e2, _⟩ := act_rx a ht e1 e2
    .inr (by rw [e2, act_rxSize]; exact h)
  cases a with
  | arrive bs =>
    rcases act_arrive hf ht bs with ⟨_, h1, _⟩ | ⟨_, h1⟩
    · exact .inl h1
    · rw [h1]; exact .inr h
  | raise bits => exact .inr (by rw [act_rxSize]; exact h)
  | _ => exact other (fun _ => nofun) (fun _ => nofun)

/-- What waits after a TCP `receive` that went on to read, but did not fill the buffer of the caller, has come since the received size was
read. -/
theorem tail_window {n z : Nat} (hn : n < 8) (hf : ∀ i, faults i = none) {S A A' : List U8} {fuel k : Nat} {buf buf' : List U8} {v : U16}
    {c2 c3 c' : Chip} (i2 : At n (TcpIdle S A) c2) (hz : (c2.socks n).rxSize = z) (hi' : At n (TcpIdle S A') c')
    (hA : A'.length = A.length + k)
    (h3 : Socket.getReceiveSize (Chip.dev sched faults).bus (sockOf n) fuel c2 = (.ok v, c3))
    (h4 : tcpTail (Chip.dev sched faults).bus ⟨sockOf n⟩ v.toNat (buf, c3) = (.ok k, (buf', c'))) (hk : k < buf.length) :
    ∃ t, c2.clock ≤ t ∧ t ≤ c'.clock ∧ c'.clock ≤ t + (min buf.length z + 10) ∧ (c'.socks n).rsr.toNat ≤ load sched n t (c'.clock - t) := by
  obtain ⟨t, a, g0, g1, g2, g3⟩ := filled_receiveSize hn (L := A.length) (stable_tcpIdle S A) (fun s h => h.rx.core.rxFits)
    (fun s h => by rw [h.rx.core.arrived, List.length_append, Sock.queue_length]) i2 h3
  have hP : StableS fun s => TcpIdle S A s ∧ s.rxSize = z := fun s a h => ⟨stable_tcpIdle S A s a h.1, (act_rxSize s a).trans h.2⟩
  obtain ⟨_, s0, ⟨j3, j4⟩, _, j5⟩ := (hs_receiveSize (sched := sched) (faults := faults) hn hP (fun _ h => h.1.rx.core.rxFits) fuel).ok
    (s := c2) ⟨i2, hz⟩ h3
  have hv : v.toNat ≤ z := by rw [j5, ← j4]; exact j3.rx.core.fits
  have hlen := tcpTail_len h4
  have hcost := ((co_tcpTail (Meter.chip_on sched faults) ⟨sockOf n⟩ v.toNat buf.length).run (buf, c3) (Nat.le_refl _)).1.2
  have hreach := (moves_tcpTail (B := (Chip.dev sched faults).bus) ⟨sockOf n⟩ v.toNat).run (buf, c3)
  rw [h4] at hcost hreach
  have hfill := reach_ticks hf filled_ticks (fun b ad d hfr i hi c hc => filled_poke hn hfr i hi c hc) hreach g3
  have ha := congrArg List.length hi'.rx.core.arrived
  rw [List.length_append, Sock.queue_length] at ha
  have har := hfill.arrived
  have hlate := hfill.late
  dsimp only at har hlate hcost ha
  have hcost : c'.clock ≤ c3.clock + (v.toNat + 6) := hcost
  exact ⟨t, g0, hlate, by omega, by omega⟩

/-- If the RX buffer is full and unannounced after a TCP `receive` that did not fill the buffer of the caller, then it was before, or all of
it has come while `receive` was running. -/
theorem tcp_leaves {n : Nat} (hn : n < 8) (hf : ∀ i, faults i = none) {S A A' : List U8} {fuel k : Nat} {buf buf' : List U8}
    {d d' : Device Chip H} (hi : At n (TcpIdle S A) d.bus) (hi' : At n (TcpIdle S A') d'.bus) (hA : A'.length = A.length + k)
    (h : Device.tcpReceive (Chip.dev sched faults).bus fuel ⟨sockOf n⟩ (buf, d) = (.ok k, (buf', d')))
    (hk : k < buf.length) (hj : (d'.bus.socks n).Jammed) :
    (d.bus.socks n).Jammed ∨ ∃ t, d.bus.clock ≤ t ∧
      (d'.bus.socks n).rsr.toNat ≤ load sched n t (min buf.length (d.bus.socks n).rxSize + 10) := by
  have h := onSockBus_run h
  obtain ⟨x, c1, y, c2, h1, h2, h3⟩ := recv_split h
  have k1 := (Chip.read1_clock (sched := sched) (faults := faults) _ _ d.bus.clock).ok (s := d.bus) rfl h1
  have k2 := (Chip.read1_clock (sched := sched) (faults := faults) _ _ c1.clock).ok (s := c1) rfl h2
  rcases h3 with ⟨hy, h3, e⟩ | ⟨_, v, c3, h3, h4⟩
  · left
    rw [e] at hj
    by_cases hd : (d.bus.socks n).Announced ∨ (d.bus.socks n).rsr.toNat < (d.bus.socks n).rxSize
    · have hP : StableS fun s => TcpIdle S A s ∧ (s.Announced ∨ s.rsr.toNat < s.rxSize) := fun s a h =>
        ⟨stable_tcpIdle S A s a h.1, roomy_act a h.1.tx.tcp h.1.rx.core.rxFits h.2⟩
      have hst := hP.stays (sched := sched) (n := n) |>.ticks
      have j2 := (hst.read1 (faults := faults) _ _).ok ((hst.read1 (faults := faults) _ _).ok ⟨hi, hd⟩ h1) h2
      rcases j2.2 with j2 | j2
      · exact absurd j2 hj.2
      · exact absurd hj.1 (by omega)
    · exact ⟨by rcases Nat.lt_or_ge (d.bus.socks n).rsr.toNat (d.bus.socks n).rxSize with h | h
                · exact absurd (.inr h) hd
                · exact Nat.le_antisymm hi.rx.core.fits h, fun h => hd (.inl h)⟩
  right
  have hP : StableS fun s => TcpIdle S A s ∧ s.rxSize = (d.bus.socks n).rxSize := fun s a h =>
    ⟨stable_tcpIdle S A s a h.1, (act_rxSize s a).trans h.2⟩
  have hst := hP.stays (sched := sched) (n := n) |>.ticks
  have j2 := (hst.read1 (faults := faults) _ _).ok ((hst.read1 (faults := faults) _ _).ok ⟨hi, rfl⟩ h1) h2
  obtain ⟨t, g1, g2, g3, g4⟩ := tail_window hn hf j2.1 j2.2 hi' hA h3 h4 hk
  exact ⟨t, by omega, Nat.le_trans g4 (load_mono (by omega))⟩

/-- What waits after a TCP `receive` that found RECV set, but did not fill the buffer of the caller, has come since the received size was
read. -/
theorem tcp_window {n : Nat} (hn : n < 8) (hf : ∀ i, faults i = none) {S A A' : List U8} {fuel k : Nat} {buf buf' : List U8}
    {d d' : Device Chip H} (hi : At n (TcpIdle S A) d.bus) (hi' : At n (TcpIdle S A') d'.bus) (hA : A'.length = A.length + k)
    (h : Device.tcpReceive (Chip.dev sched faults).bus fuel ⟨sockOf n⟩ (buf, d) = (.ok k, (buf', d')))
    (hk : k < buf.length) (hd : (d.bus.socks n).Announced) :
    ∃ t, d.bus.clock ≤ t ∧ t ≤ d'.bus.clock ∧ d'.bus.clock ≤ t + (min buf.length (d.bus.socks n).rxSize + 10) ∧
      (d'.bus.socks n).rsr.toNat ≤ load sched n t (d'.bus.clock - t) := by
  have h := onSockBus_run h
  obtain ⟨x, c1, y, c2, h1, h2, h3⟩ := recv_split h
  have k1 := (Chip.read1_clock (sched := sched) (faults := faults) _ _ d.bus.clock).ok (s := d.bus) rfl h1
  have k2 := (Chip.read1_clock (sched := sched) (faults := faults) _ _ c1.clock).ok (s := c1) rfl h2
  have hP : StableS fun s => TcpIdle S A s ∧ s.rxSize = (d.bus.socks n).rxSize ∧ s.Announced := fun s a h =>
    ⟨stable_tcpIdle S A s a h.1, (act_rxSize s a).trans h.2.1, announced_act a h.2.2⟩
  have hst := hP.stays (sched := sched) (n := n) |>.ticks
  have j2 := (hst.read1 (faults := faults) _ _).ok ((hst.read1 (faults := faults) _ _).ok ⟨hi, rfl, hd⟩ h1) h2
  rcases h3 with ⟨hy, h3, e⟩ | ⟨_, v, c3, h3, h4⟩
  · have e : y = (c2.socks n).ir := (Chip.read1_value (sched := sched) (faults := faults) hn 0x02).ok (s := c1) trivial h2
    have := j2.2.2
    unfold Announced at this
    rw [← e, hy] at this
    exact nomatch this
  obtain ⟨t, g1, g2⟩ := tail_window hn hf j2.1 j2.2.1 hi' hA h3 h4 hk
  exact ⟨t, by omega, g2⟩

/-- Time does not run backwards. -/
theorem tcpReceive_clock {n : Nat} (hf : ∀ i, faults i = none) {fuel k : Nat} {buf buf' : List U8} {d d' : Device Chip H}
    (h : Device.tcpReceive (Chip.dev sched faults).bus fuel ⟨sockOf n⟩ (buf, d) = (.ok k, (buf', d'))) :
    d.bus.clock ≤ d'.bus.clock := by
  have hm := (movesRecv_tcpReceive (B := (Chip.dev sched faults).bus) ⟨sockOf n⟩ fuel).run (buf, d.bus)
  rw [onSockBus_run h] at hm
  refine reach_ticks (I := fun c => d.bus.clock ≤ c.clock) hf ⟨fun c h => ?_, fun c i h => h⟩
    (fun b ad d hfr i hi c hc => by rw [Chip.poke_clock]; exact hc) hm (Nat.le_refl _)
  rw [Chip.tick_clock]
  exact Nat.le_succ_of_le h

/-- Receiving leaves the size of the RX buffer as it is. -/
theorem tcpReceive_rxSize {n : Nat} (hn : n < 8) {fuel k : Nat} {buf buf' : List U8} {d d' : Device Chip H}
    (h : Device.tcpReceive (Chip.dev sched faults).bus fuel ⟨sockOf n⟩ (buf, d) = (.ok k, (buf', d'))) :
    (d'.bus.socks n).rxSize = (d.bus.socks n).rxSize := by
  have hm := (movesRecv_tcpReceive (B := (Chip.dev sched faults).bus) ⟨sockOf n⟩ fuel).run (buf, d.bus)
  rw [onSockBus_run h] at hm
  refine reach_recv (P := fun s => s.rxSize = (d.bus.socks n).rxSize) hn (fun s a e => ?_) (fun s a x ha e => ?_) (fun _ _ e => e)
    (fun _ _ e => e) hm rfl
  · exact (act_rxSize s a).trans e
  · rcases ha with rfl | rfl <;> exact e

end W5500.Spec
