import Verif.Spec.Pace
import Verif.Proofs.Load
import Verif.Proofs.Block
/-! # One thing at a time -/

namespace W5500.Spec
open W5500 socketn Sock
variable {E ε α H : Type} {sched : Nat → List (Nat × Act)} {faults : Nat → Option (E × Nat)} {n : Nat}

/-- `s'` has received and announced no more than `s`. -/
structure Lull (s s' : Sock) : Prop where
  proto : s'.proto = s.proto
  size : s'.rxSize = s.rxSize
  arrived : s'.arrived = s.arrived
  rsr : s'.rsr = s.rsr
  announced : s'.Announced ↔ s.Announced

theorem Lull.rfl {s : Sock} : Lull s s := ⟨.refl _, .refl _, .refl _, .refl _, .rfl⟩

theorem Lull.trans {s t u : Sock} (h : Lull s t) (g : Lull t u) : Lull s u :=
  ⟨g.1.trans h.1, g.2.trans h.2, g.3.trans h.3, g.4.trans h.4, g.5.trans h.5⟩

theorem lull_act (s : Sock) {a : Act} (h : a.isNews = false) : Lull s (s.act a) := by
  suffices H : (s.act a).arrived = s.arrived ∧ (s.act a).rsr = s.rsr ∧ ((s.act a).Announced ↔ s.Announced) from
    ⟨act_proto s a, act_rxSize s a, H.1, H.2.1, H.2.2⟩
  cases a with
  | arrive bs => cases h
  | datagram d => cases h
  | frame f => cases h
  | raise bits =>
    refine ⟨rfl, rfl, ?_⟩
    have h : bits.getLsbD 2 = false := h
    unfold Announced
    show (s.ir ||| _).getLsbD 2 = true ↔ _
    rw [BitVec.getLsbD_or]
    split
    · rw [h, Bool.or_false]
    · rw [BitVec.getLsbD_and, h, Bool.false_and, Bool.or_false]
  | transmit k => simp only [act]; split <;> exact ⟨rfl, rfl, .rfl⟩
  | ack k => simp only [act]; split <;> exact ⟨rfl, rfl, .rfl⟩
  | emit b => simp only [act]; split <;> exact ⟨rfl, rfl, .rfl⟩
  | status x => exact ⟨rfl, rfl, .rfl⟩

theorem lull_events {l : List (Nat × Act)} (h : news n l = []) (c : Chip) : Lull (c.socks n) ((l.foldl Chip.event c).socks n) := by
  induction l generalizing c with
  | nil => exact .rfl
  | cons e l ih =>
    unfold news at h ih
    rw [List.filter_cons] at h
    split at h
    · cases h
    rename_i he
    refine .trans ?_ (ih h (c.event e))
    unfold Chip.event
    by_cases hn : e.1 = n
    · rw [hn, Chip.setSock_self]
      refine lull_act _ ?_
      simpa [hn] using he
    · rw [Chip.setSock_other _ _ _ _ (Ne.symm hn)]
      exact .rfl

theorem news_split {l : List (Nat × Act)} {a : Act} (h : news n l = [a]) :
    ∃ l1 l2, l = l1 ++ (n, a) :: l2 ∧ news n l1 = [] ∧ news n l2 = [] := by
  induction l with
  | nil => cases h
  | cons e l ih =>
    unfold news at h ih ⊢
    rw [List.filter_cons] at h
    split at h
    · rename_i he
      rw [List.map_cons] at h
      injection h with h1 h2
      refine ⟨[], l, ?_, by rfl, h2⟩
      obtain ⟨i, b⟩ := e
      simp only [Bool.and_eq_true, decide_eq_true_eq] at he
      rw [← h1, ← he.1]
      rfl
    · rename_i he
      obtain ⟨l1, l2, h1, h2, h3⟩ := ih h
      refine ⟨e :: l1, l2, by rw [h1]; rfl, ?_, h3⟩
      rw [List.filter_cons, if_neg he]
      exact h2

/-- From time `T` on nothing comes until time `a`; then come the bytes `bs`, and nothing else until time `q`. -/
structure Timed (n p T a q z : Nat) (X bs : List U8) (c : Chip) : Prop where
  start : T ≤ c.clock
  proto : (c.socks n).proto = p
  size : (c.socks n).rxSize = z
  fits : RxFits (c.socks n)
  before : c.clock ≤ a → (c.socks n).arrived = X ∧ (c.socks n).rsr.toNat = 0 ∧ ¬ (c.socks n).Announced
  after : a < c.clock → c.clock ≤ q → (c.socks n).arrived = X ++ bs ∧ (c.socks n).rsr.toNat = bs.length ∧ (c.socks n).Announced

theorem timed_ticks {p T a q z : Nat} {X bs : List U8} {e : Act} (h1 : ∀ k, T ≤ k → k < a → news n (sched k) = [])
    (h2 : news n (sched a) = [e]) (he : ∀ s : Sock, s.proto = p → s.act e = s.push bs) (hz : bs.length ≤ z)
    (h3 : ∀ k, a < k → k < q → news n (sched k) = []) : Chip.Ticks sched (Timed n p T a q z X bs) := by
  refine ⟨fun c h => ?_, fun c i h => ⟨h.start, h.proto, h.size, h.fits, h.before, h.after⟩⟩
  have hst : StableS (fun s => (s.proto = p ∧ s.rxSize = z) ∧ RxFits s) := fun s a h =>
    ⟨⟨(act_proto s a).trans h.1.1, (act_rxSize s a).trans h.1.2⟩, (act_rxFits h.2 a).1⟩
  have hs := (hst.stays (sched := sched) (n := n)).ticks.tick c ⟨⟨h.proto, h.size⟩, h.fits⟩
  refine ⟨by rw [Chip.tick_clock]; exact Nat.le_succ_of_le h.start, hs.1.1, hs.1.2, hs.2, ?_, ?_⟩
  · rw [Chip.tick_clock]
    intro hk
    obtain ⟨g1, g2, g3⟩ := h.before (by omega)
    have hc := lull_events (h1 _ h.start (by omega)) c
    exact ⟨hc.arrived.trans g1, (congrArg BitVec.toNat hc.rsr).trans g2, fun hx => g3 (hc.announced.mp hx)⟩
  · rw [Chip.tick_clock]
    intro hk hq
    rcases Nat.lt_or_ge a c.clock with hlt | hge
    · obtain ⟨g1, g2, g3⟩ := h.after hlt (by omega)
      have hc := lull_events (h3 _ hlt (by omega)) c
      exact ⟨hc.arrived.trans g1, (congrArg BitVec.toNat hc.rsr).trans g2, hc.announced.mpr g3⟩
    · have e0 : c.clock = a := by omega
      obtain ⟨g1, g2, g3⟩ := h.before hge
      obtain ⟨l1, l2, f1, f2, f3⟩ := news_split h2
      have hl : sched c.clock = l1 ++ (n, e) :: l2 := by rw [e0, f1]
      have k1 := lull_events f2 c
      have hf1 : RxFits ((l1.foldl Chip.event c).socks n) := ⟨by rw [k1.size]; exact h.fits.size, by rw [k1.size, k1.rsr]; exact h.fits.fits⟩
      have hroom : ((l1.foldl Chip.event c).socks n).rsr.toNat + bs.length ≤ ((l1.foldl Chip.event c).socks n).rxSize := by
        rw [k1.rsr, g2, k1.size, h.size]; omega
      have k2 : ((l1.foldl Chip.event c).event (n, e)).socks n = ((l1.foldl Chip.event c).socks n).push bs :=
        (Chip.setSock_self _ _ _).trans (he _ (k1.proto.trans h.proto))
      have k3 := lull_events f3 ((l1.foldl Chip.event c).event (n, e))
      rw [k2] at k3
      show (((sched c.clock).foldl Chip.event c).socks n).arrived = _ ∧ (((sched c.clock).foldl Chip.event c).socks n).rsr.toNat = _ ∧
        (((sched c.clock).foldl Chip.event c).socks n).Announced
      rw [hl, List.foldl_append, List.foldl_cons]
      refine ⟨?_, ?_, k3.announced.mpr (stored_announced hroom)⟩
      · rw [k3.arrived, push, if_pos hroom]
        show _ ++ bs = _
        rw [k1.arrived, g1]
      · rw [k3.rsr, (push_queue hf1 hroom).2, k1.rsr, g2]
        omega

/-- The second half of it. -/
structure Come (n a q : Nat) (Y : List U8) (c : Chip) : Prop where
  late : a < c.clock
  arrived : c.clock ≤ q → (c.socks n).arrived = Y

theorem come_ticks {a q : Nat} {Y : List U8} (h3 : ∀ k, a < k → k < q → news n (sched k) = []) :
    Chip.Ticks sched (Come n a q Y) := by
  refine ⟨fun c h => ⟨by rw [Chip.tick_clock]; exact Nat.lt_succ_of_lt h.late, fun hq => ?_⟩, fun c i h => ⟨h.late, h.arrived⟩⟩
  rw [Chip.tick_clock] at hq
  exact (lull_events (h3 _ h.late (by omega)) c).arrived.trans (h.arrived (by omega))

theorem come_poke {a q : Nat} {Y : List U8} (hn : n < 8) {b : U8} {ad : U16} {d : List U8} (h : GetFrames (sockOf n) b ad d) (i : Nat)
    (hi : i < d.length) (c : Chip) (hc : Come n a q Y c) :
    Come n a q Y (c.poke (b.setWidth 5) (ad + BitVec.ofNat 16 i) d[i]) :=
  ⟨by rw [Chip.poke_clock]; exact hc.late, fun hq => by
    rw [Chip.poke_clock] at hq
    rw [(getFrames_poke hn h i hi c).2]
    exact hc.arrived hq⟩

/-- While nothing comes, the first two samples of the received size agree. -/
theorem size_once (hn : n < 8) {fuel : Nat} {v : U16} {c c' : Chip} (hfit : RxFits (c.socks n)) {I : Chip → Prop} (hT : Chip.Ticks sched I)
    (hI : I c) (hc : ∀ c', I c' → c'.clock = c.clock + 4 → (c'.socks n).rsr = (c.socks n).rsr)
    (h : (sockOf n).getReceiveSize (Chip.dev sched faults).bus fuel c = (.ok v, c')) :
    c'.clock = c.clock + 4 ∧ v = (c.socks n).rsr := by
  cases fuel with
  | zero => cases h
  | succ fuel =>
    have hz : (c.socks n).rxSize < 65536 := Nat.lt_of_le_of_lt hfit.size.le (by decide)
    unfold Socket.getReceiveSize at h
    obtain ⟨x, c1, h1, h⟩ := M.bind_eq_ok.mp h
    obtain ⟨y, c2, h2, h⟩ := M.bind_eq_ok.mp h
    have k1 := (Chip.read2_clock (sched := sched) (faults := faults) _ _ c.clock).ok (s := c) rfl h1
    have k2 := (Chip.read2_clock (sched := sched) (faults := faults) _ _ c1.clock).ok (s := c1) rfl h2
    have hI2 := (hT.read2 (faults := faults) _ _).ok ((hT.read2 (faults := faults) _ _).ok hI h1) h2
    have heq := hc c2 hI2 (by omega)
    have hP : ∀ s0 : Sock, StableS (fun s => s0.Evolves s) := fun s0 s a e => e.trans (.act s a)
    obtain ⟨e1, s1, s2, p1, p2, q1, q2, r1⟩ := (hs_read2 (sched := sched) (faults := faults) hn (hP (c.socks n)) _).ok
      (s := c) (.refl _) h1
    obtain ⟨e2, s3, s4, p3, p4, q3, q4, r2⟩ := (hs_read2 (sched := sched) (faults := faults) hn (hP (c1.socks n)) _).ok
      (s := c1) (.refl _) h2
    have mid : ∀ t : Sock, (c.socks n).Evolves t → t.Evolves (c2.socks n) → t.rsr = (c.socks n).rsr := by
      intro t a b
      have ha := evolves_rsr hz a
      have hb := evolves_rsr (by rw [ha.1]; exact hz) b
      rcases ha.2 with e | ⟨x, _⟩
      · exact e
      · rcases hb.2 with e | ⟨y, _⟩
        · rw [← heq, e]
        · rw [heq] at y; omega
    have hx : x = (c.socks n).rsr := by
      rw [r1]
      show ((s1.rsr.extractLsb' 8 8 : U8) ++ (s2.rsr.extractLsb' 0 8 : U8) : U16) = _
      rw [mid s1 p1 (q1.trans (q2.trans e2)), mid s2 p2 (q2.trans e2)]
      exact whole _
    have hy : y = (c.socks n).rsr := by
      rw [r2]
      show ((s3.rsr.extractLsb' 8 8 : U8) ++ (s4.rsr.extractLsb' 0 8 : U8) : U16) = _
      rw [mid s3 (e1.trans p3) (q3.trans q4), mid s4 (e1.trans p4) q4]
      exact whole _
    split at h
    · cases h
      exact ⟨by omega, hx⟩
    · rename_i hne
      exact absurd (hx.trans hy.symm) hne

/-- Polling before the bytes have come: `WouldBlock` means that they still have not. -/
theorem timed_polls (hn : n < 8) {p T a q z : Nat} {X bs : List U8} (hT : Chip.Ticks sched (Timed n p T a q z X bs)) (hq : a + 2 ≤ q)
    (hbs : bs ≠ []) {u : UdpSocket} (hu : u.socket = sockOf n) {fuel : Nat} {buf buf' : List U8} {d d' : Device Chip H}
    (hd : Timed n p T a q z X bs d.bus) (hk : d.bus.clock ≤ a)
    (h : Device.udpReceive (Chip.dev sched faults).bus fuel u (buf, d) = (.err .wouldBlock, (buf', d'))) :
    buf' = buf ∧ Timed n p T a q z X bs d'.bus ∧ d'.bus.clock ≤ a := by
  obtain ⟨w1, x, w2, w3, h1, h2, h3, rfl, rfl⟩ := (Props.wouldBlock_iff _ _ _ _ _ _ _).mp h
  rw [hu] at h1 h2 h3
  have r1 : (Chip.dev sched faults).bus.read1 (sockOf n).register 0x03 d.bus = (.ok 0x22, w1) := Bus.read1_eq_ok.mpr h1
  have r2 : (Chip.dev sched faults).bus.read1 (sockOf n).register 0x02 w1 = (.ok x, w2) := Bus.read1_eq_ok.mpr h2
  have k1 := (Chip.read1_clock (sched := sched) (faults := faults) _ _ d.bus.clock).ok (s := d.bus) rfl r1
  have k2 := (Chip.read1_clock (sched := sched) (faults := faults) _ _ w1.clock).ok (s := w1) rfl r2
  have hw2 : Timed n p T a q z X bs w2 := (hT.read1 (faults := faults) _ _).ok ((hT.read1 (faults := faults) _ _).ok hd r1) r2
  have e : x = (w2.socks n).ir := (Chip.read1_value (sched := sched) (faults := faults) hn 0x02).ok (s := w1) trivial r2
  have key : ∀ x : U8, x &&& 4 = 0 ↔ ¬ x.getLsbD 2 = true := by decide +kernel
  rcases h3 with ⟨hx, rfl⟩ | ⟨hx, h3⟩
  · refine ⟨rfl, hw2, ?_⟩
    rcases Nat.lt_or_ge a w3.clock with hlt | hge
    · have := (hw2.after hlt (by omega)).2.2
      unfold Announced at this
      rw [← e] at this
      exact absurd this ((key x).mp hx)
    · exact hge
  · exfalso
    have hlt : a < w2.clock := by
      rcases Nat.lt_or_ge a w2.clock with hlt | hge
      · exact hlt
      · have := (hw2.before hge).2.2
        unfold Announced at this
        rw [← e] at this
        exact absurd ((key x).mpr this) hx
    have hr := (hw2.after hlt (by omega)).2.1
    have hpos : 1 ≤ bs.length := List.length_pos_iff.mpr hbs
    have hst : StableS (fun s => RxFits s ∧ 1 ≤ s.rsr.toNat) := fun s a h => ⟨(act_rxFits h.1 a).1, Nat.le_trans h.2 (act_rxFits h.1 a).2⟩
    obtain ⟨_, s0, h6, _, e0⟩ := (hs_receiveSize (sched := sched) (faults := faults) hn hst (fun _ h => h.1) fuel).ok (s := w2)
      ⟨hw2.fits, by omega⟩ h3
    have := h6.2
    rw [← e0] at this
    exact absurd this (by decide)

/-- ... and when it reports them, they came when it had just begun. -/
theorem timed_recvHead (hn : n < 8) {p T a q z : Nat} {X bs : List U8} (hT : Chip.Ticks sched (Timed n p T a q z X bs)) (hq : a + 16 ≤ q)
    {u : UdpSocket} (hu : u.socket = sockOf n) {fuel l : Nat} {x : Nat × U16 × UdpHeader} {c c' : Chip}
    (hc : Timed n p T a q z X bs c) (hk : c.clock ≤ a)
    (h : recvHead (Chip.dev sched faults).bus fuel u l c = (.ok x, c')) :
    Timed n p T a q z X bs c' ∧ a < c'.clock ∧ c'.clock ≤ a + 16 := by
  unfold recvHead Socket.hasInterrupt at h
  obtain ⟨_, c1, h1, h⟩ := M.bind_eq_ok.mp h
  rw [hu] at h
  obtain ⟨b, c2, h2, h⟩ := M.bind_eq_ok.mp h
  have g1 : Timed n p T a q z X bs c1 ∧ c1.clock = c.clock + 1 := by
    unfold UdpSocket.checkStatus Socket.getStatus at h1
    obtain ⟨st, c1', g1, g2⟩ := M.bind_eq_ok.mp h1
    have g1 := M.mapErr_eq_ok.mp g1
    have e : c1' = c1 := by
      generalize Status.tryFrom st = o at g2
      rcases o with _ | o
      · cases g2
      · cases o <;> first | (cases g2; rfl) | cases g2
    subst e
    exact ⟨(hT.read1 (faults := faults) _ _).ok hc g1,
      (Chip.read1_clock (sched := sched) (faults := faults) _ _ c.clock).ok (s := c) rfl g1⟩
  split at h
  · cases h
  rename_i hb
  obtain ⟨y, c2', g3, g4⟩ := M.bind_eq_ok.mp (M.mapErr_eq_ok.mp h2)
  cases g4
  have t2 : Timed n p T a q z X bs c2 := (hT.read1 (faults := faults) _ _).ok g1.1 g3
  have k2 := (Chip.read1_clock (sched := sched) (faults := faults) _ _ c1.clock).ok (s := c1) rfl g3
  have e : y = (c2.socks n).ir := (Chip.read1_value (sched := sched) (faults := faults) hn 0x02).ok (s := c1) trivial g3
  have hlt : a < c2.clock := by
    rcases Nat.lt_or_ge a c2.clock with hlt | hge
    · exact hlt
    · have := (t2.before hge).2.2
      unfold Announced at this
      rw [← e] at this
      have key : ∀ y : U8, ¬ (!decide (y &&& Interrupt.receive.toU8 ≠ 0)) = true → y.getLsbD 2 = true := by decide +kernel
      exact absurd (key y hb) this
  obtain ⟨v, c3, h3, h⟩ := M.bind_eq_ok.mp h
  have h3 := M.mapErr_eq_ok.mp h3
  have t3 : Timed n p T a q z X bs c3 := (ticks_receiveSize hT fuel).ok t2 h3
  have ⟨k3, _⟩ := size_once hn t2.fits hT t2 (fun c' hc' hk' => BitVec.eq_of_toNat_eq <| by
    rw [(hc'.after (by omega) (by omega)).2.1, (t2.after (by omega) (by omega)).2.1]) h3
  split at h
  · cases h
  split at h
  · cases h
  obtain ⟨p', c4, h4, h⟩ := M.bind_eq_ok.mp h
  obtain ⟨hd, c5, h5, h⟩ := M.bind_eq_ok.mp h
  have h4 := M.mapErr_eq_ok.mp h4
  have h5 := M.mapErr_eq_ok.mp h5
  unfold Socket.getRxReadPointer at h4
  have k4 := (Chip.read2_clock (sched := sched) (faults := faults) _ _ c3.clock).ok (s := c3) rfl h4
  have k5 := (Chip.readBuf_clock (sched := sched) (faults := faults) _ _ _ c4.clock).ok (s := c4) rfl h5
  have t5 := (hT.readBuf (faults := faults) _ _ _).ok ((hT.read2 (faults := faults) _ _).ok t3 h4) h5
  generalize UdpHeader.fromArray hd = o at h
  cases o with
  | none => cases h
  | some o =>
    cases h
    have k5 : c'.clock = c4.clock + 8 := k5
    exact ⟨t5, by omega, by omega⟩

/-- A `receive` that begins before the bytes have come and returns `Ok` is done soon after; nothing else has come by then. -/
theorem timed_receive (hn : n < 8) (hf : ∀ i, faults i = none) {p T a z : Nat} {X bs : List U8} {u : UdpSocket} (hu : u.socket = sockOf n)
    {fuel : Nat} {buf buf' : List U8} {x : Nat × SockAddr} {d d' : Device Chip H}
    (hT : Chip.Ticks sched (Timed n p T a (a + (buf.length + 20)) z X bs))
    (h3 : ∀ k, a < k → k < a + (buf.length + 20) → news n (sched k) = [])
    (hd : Timed n p T a (a + (buf.length + 20)) z X bs d.bus) (hk : d.bus.clock ≤ a)
    (h : Device.udpReceive (Chip.dev sched faults).bus fuel u (buf, d) = (.ok x, (buf', d'))) :
    (d'.bus.socks n).arrived = X ++ bs ∧ a < d'.bus.clock ∧ d'.bus.clock ≤ a + (buf.length + 20) := by
  unfold Device.udpReceive at h
  have h := onSockBus_run h
  obtain ⟨y, ⟨b1, c1⟩, h, hy⟩ := M.bind_eq_ok.mp h
  cases hy
  rw [receive_split] at h
  obtain ⟨p, ⟨b2, c2⟩, h0, h2⟩ := M.bind_eq_ok.mp h
  obtain ⟨h1, e⟩ := M.onSnd_eq_ok.mp h0
  dsimp only at h1 e
  clear h0 h
  subst e
  obtain ⟨t1, k1, k2⟩ := timed_recvHead hn hT (by omega) hu hd hk h1
  obtain ⟨q1, q2, q3⟩ := p
  dsimp only at h2
  have hcost := ((co_recvTail (Meter.chip_on sched faults) u buf.length q1 buf.length q2 q3).run (buf, c2)
    (Nat.le_refl _)).1.2
  have hreach := (moves_recvTail (B := (Chip.dev sched faults).bus) u buf.length q1 q2 q3).run (buf, c2)
  rw [h2] at hcost hreach
  rw [hu] at hreach
  have hcome := reach_ticks hf (come_ticks (Y := X ++ bs) h3) (fun b ad d hfr i hi c hc => come_poke hn hfr i hi c hc) hreach
    ⟨k1, fun hq => (t1.after k1 hq).1⟩
  have hcost : d'.bus.clock ≤ c2.clock + (buf.length + 4) := hcost
  exact ⟨hcome.arrived (by dsimp only; omega), hcome.late, by omega⟩

/-! ## TCP -/

/-- A TCP `receive` that begins before the bytes have come: it ends before they come and returns 0, or it delivers them, soon after, and
nothing else has come by then. -/
theorem timed_tcp (hn : n < 8) (hf : ∀ i, faults i = none) {p T a z : Nat} {X bs : List U8} {fuel k : Nat} {buf buf' : List U8}
    {d d' : Device Chip H} (hT : Chip.Ticks sched (Timed n p T a (a + (bs.length + 12)) z X bs))
    (h3 : ∀ k, a < k → k < a + (bs.length + 12) → news n (sched k) = [])
    (hd : Timed n p T a (a + (bs.length + 12)) z X bs d.bus) (hk : d.bus.clock ≤ a)
    (h : Device.tcpReceive (Chip.dev sched faults).bus fuel ⟨sockOf n⟩ (buf, d) = (.ok k, (buf', d'))) :
    (k = 0 ∧ Timed n p T a (a + (bs.length + 12)) z X bs d'.bus ∧ d.bus.clock + 2 ≤ d'.bus.clock ∧ d'.bus.clock ≤ a) ∨
    (k = min buf.length bs.length ∧ (d'.bus.socks n).arrived = X ++ bs ∧ a < d'.bus.clock ∧ d'.bus.clock ≤ a + (bs.length + 12)) := by
  have h := onSockBus_run h
  obtain ⟨x, c1, y, c2, h1, h2, h5⟩ := recv_split h
  have k1 := (Chip.read1_clock (sched := sched) (faults := faults) _ _ d.bus.clock).ok (s := d.bus) rfl h1
  have k2 := (Chip.read1_clock (sched := sched) (faults := faults) _ _ c1.clock).ok (s := c1) rfl h2
  have t2 := (hT.read1 (faults := faults) _ _).ok ((hT.read1 (faults := faults) _ _).ok hd h1) h2
  have e : y = (c2.socks n).ir := (Chip.read1_value (sched := sched) (faults := faults) hn 0x02).ok (s := c1) trivial h2
  rcases h5 with ⟨hy, rfl, e5⟩ | ⟨hy, v, c3, h5, h6⟩
  · left
    have hge : c2.clock ≤ a := by
      refine Nat.not_lt.mp fun hlt => ?_
      have := (t2.after hlt (by omega)).2.2
      unfold Announced at this
      rw [← e, hy] at this
      exact nomatch this
    rw [show d'.bus = c2 from e5]
    exact ⟨rfl, t2, by omega, by omega⟩
  · right
    have hlt : a < c2.clock := by
      refine Nat.not_le.mp fun hge => (t2.before hge).2.2 ?_
      unfold Announced
      rw [← e, hy]
    have ⟨k3, hv⟩ := size_once hn t2.fits hT t2 (fun c' hc' hk' => BitVec.eq_of_toNat_eq <| by
      rw [(hc'.after (by omega) (by omega)).2.1, (t2.after (by omega) (by omega)).2.1]) h5
    have t3 : Timed n p T a (a + (bs.length + 12)) z X bs c3 := (ticks_receiveSize hT fuel).ok t2 h5
    have hv : v.toNat = bs.length := by rw [hv]; exact (t2.after hlt (by omega)).2.1
    have hlen := tcpTail_len h6
    have hcost := ((co_tcpTail (Meter.chip_on sched faults) ⟨sockOf n⟩ v.toNat buf.length).run (buf, c3) (Nat.le_refl _)).1.2
    have hreach := (moves_tcpTail (B := (Chip.dev sched faults).bus) ⟨sockOf n⟩ v.toNat).run (buf, c3)
    rw [h6] at hcost hreach
    have hcome := reach_ticks hf (come_ticks (Y := X ++ bs) h3) (fun b ad d hfr i hi c hc => come_poke hn hfr i hi c hc) hreach
      ⟨by dsimp only; omega, fun hq => (t3.after (by omega) hq).1⟩
    have hcost : d'.bus.clock ≤ c3.clock + (v.toNat + 6) := hcost
    exact ⟨by rw [hlen, hv], hcome.arrived (by dsimp only; omega), hcome.late, by omega⟩

end W5500.Spec
