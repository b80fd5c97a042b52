import Verif.Spec.Watch
import Verif.Proofs.Pace
/-! # Polling -/

namespace W5500.Spec
open W5500 socketn Sock
variable {E ε α H : Type} {sched : Nat → List (Nat × Act)} {faults : Nat → Option (E × Nat)} {n : Nat}

/-! ## What comes next -/

/-- As `timed_ticks`; or nothing comes until `a`. -/
theorem due_ticks {p T a q z : Nat} {X bs : List U8} (h1 : ∀ k, T ≤ k → k < a → news n (sched k) = []) (hq : q ≤ a) :
    Chip.Ticks sched (Timed n p T a q z X bs) := by
  refine ⟨fun c h => ?_, fun c i h => ⟨h.start, h.proto, h.size, h.fits, h.before, h.after⟩⟩
  have hst : StableS (fun s => (s.proto = p ∧ s.rxSize = z) ∧ RxFits s) := fun s a h =>
    ⟨⟨(act_proto s a).trans h.1.1, (act_rxSize s a).trans h.1.2⟩, (act_rxFits h.2 a).1⟩
  have hs := (hst.stays (sched := sched) (n := n)).ticks.tick c ⟨⟨h.proto, h.size⟩, h.fits⟩
  refine ⟨by rw [Chip.tick_clock]; exact Nat.le_succ_of_le h.start, hs.1.1, hs.1.2, hs.2, ?_, ?_⟩
  · rw [Chip.tick_clock]
    intro hk
    obtain ⟨g1, g2, g3⟩ := h.before (by omega)
    have hc := lull_events (h1 _ h.start (by omega)) c
    exact ⟨hc.arrived.trans g1, (congrArg BitVec.toNat hc.rsr).trans g2, fun hx => g3 (hc.announced.mp hx)⟩
  · intro h1 h2
    omega

/-- The first time from `t` on, and before `t + g`, at which something comes, if there is one. -/
theorem first_news (sched : Nat → List (Nat × Act)) (n t g : Nat) :
    (∀ k, t ≤ k → k < t + g → news n (sched k) = []) ∨
    ∃ a, t ≤ a ∧ a < t + g ∧ (∀ k, t ≤ k → k < a → news n (sched k) = []) ∧ news n (sched a) ≠ [] := by
  induction g with
  | zero => exact .inl fun k _ _ => by omega
  | succ g ih =>
    rcases ih with h | ⟨a, h1, h2, h3⟩
    · by_cases hk : news n (sched (t + g)) = []
      · refine .inl fun k h1 h2 => ?_
        rcases Nat.lt_or_ge k (t + g) with h3 | h3
        · exact h k h1 h3
        · rw [show k = t + g by omega, hk]
      · exact .inr ⟨t + g, by omega, by omega, h, hk⟩
    · exact .inr ⟨a, h1, by omega, h3⟩

theorem came_more {T t t' : Nat} (h1 : T ≤ t) (h2 : t ≤ t') : ∃ more, came sched n T (t' - T) = came sched n T (t - T) ++ more ∧
    ((∀ k, t ≤ k → k < t' → news n (sched k) = []) → more = []) ∧
    ∀ a dg, t ≤ a → a < t' → (∀ k, t ≤ k → k < t' → k ≠ a → news n (sched k) = []) → news n (sched a) = [.datagram dg] → more = [dg] := by
  obtain ⟨g, rfl⟩ : ∃ g, t' = t + g := ⟨t' - t, by omega⟩
  clear h2
  induction g with
  | zero => exact ⟨[], by rw [List.append_nil]; rfl, fun _ => rfl, fun a dg _ _ => by omega⟩
  | succ g ih =>
    obtain ⟨more, e1, e2, e3⟩ := ih
    rw [show t + (g + 1) - T = (t + g - T) + 1 by omega]
    refine ⟨more ++ (news n (sched (t + g))).filterMap Act.dgram?, ?_, fun h => ?_, fun a dg k1 k2 h k3 => ?_⟩
    · rw [came, e1, List.append_assoc, show T + (t + g - T) = t + g by omega]
    · rw [e2 fun k q1 q2 => h k q1 (by omega), h (t + g) (by omega) (by omega)]
      rfl
    · by_cases hk : a = t + g
      · subst hk
        rw [e2 fun k q1 q2 => h k q1 (by omega) (by omega), k3]
        rfl
      · rw [e3 a dg k1 (by omega) (fun k q1 q2 q3 => h k q1 (by omega) q3) k3, h (t + g) (by omega) (by omega) (by omega)]
        rfl

/-- The next datagram comes at time `a`, and then nothing until time `q`; or (`q ≤ a`) nothing comes until time `a`. -/
def Agenda (sched : Nat → List (Nat × Act)) (n t a q : Nat) (fit : Dgram → Prop) (bs : List U8) : Prop :=
  t ≤ a ∧ (∀ k, t ≤ k → k < a → news n (sched k) = []) ∧
  (q ≤ a ∨ ∃ dg, bs = dg.encode ∧ fit dg ∧ news n (sched a) = [.datagram dg] ∧ ∀ k, a < k → k < q → news n (sched k) = [])

theorem agenda_ticks {t a q z : Nat} {fit : Dgram → Prop} {X bs : List U8} (hfit : ∀ dg, fit dg → dg.Wf ∧ dg.encode.length ≤ z)
    (h : Agenda sched n t a q fit bs) : Chip.Ticks sched (Timed n 2 t a q z X bs) := by
  obtain ⟨_, h1, h2 | ⟨dg, rfl, h2, h3, h4⟩⟩ := h
  · exact due_ticks h1 h2
  · exact timed_ticks h1 h3 (fun s hs => by simp only [act]; rw [if_pos ⟨hs, (hfit dg h2).1⟩]) (hfit dg h2).2 h4

theorem agenda {gap T t g : Nat} {fit : Dgram → Prop} (h : Spaced sched n gap T fit) (ht : T ≤ t) (hg : g ≤ gap) :
    ∃ a q bs, Agenda sched n t a q fit bs ∧ t + g ≤ q := by
  rcases first_news sched n t g with h1 | ⟨a, h1, h2, h3, h4⟩
  · exact ⟨t + g, t + g, [], ⟨by omega, h1, .inl (Nat.le_refl _)⟩, Nat.le_refl _⟩
  · obtain ⟨⟨dg, k1, k2⟩, k3⟩ := h a (by omega) h4
    exact ⟨a, a + gap, dg.encode, ⟨h1, h3, .inr ⟨dg, rfl, k2, k1, k3⟩⟩, by omega⟩

/-! ## One call -/

theorem due_polls (hn : n < 8) {p T a q z : Nat} {X bs : List U8} (hT : Chip.Ticks sched (Timed n p T a q z X bs))
    (hbs : q ≤ a ∨ bs ≠ []) {u : UdpSocket} (hu : u.socket = sockOf n) {fuel : Nat} {buf buf' : List U8} {d d' : Device Chip H}
    (hd : Timed n p T a q z X bs d.bus) (hk : d.bus.clock + 2 ≤ q)
    (h : Device.udpReceive (Chip.dev sched faults).bus fuel u (buf, d) = (.err .wouldBlock, (buf', d'))) :
    buf' = buf ∧ Timed n p T a q z X bs d'.bus ∧ d'.bus.clock ≤ a ∧ d'.bus.clock = d.bus.clock + 2 := by
  obtain ⟨w1, x, w2, w3, h1, h2, h3, rfl, rfl⟩ := (Props.wouldBlock_iff _ _ _ _ _ _ _).mp h
  rw [hu] at h1 h2 h3
  have r1 : (Chip.dev sched faults).bus.read1 (sockOf n).register 0x03 d.bus = (.ok 0x22, w1) := Bus.read1_eq_ok.mpr h1
  have r2 : (Chip.dev sched faults).bus.read1 (sockOf n).register 0x02 w1 = (.ok x, w2) := Bus.read1_eq_ok.mpr h2
  have k1 := (Chip.read1_clock (sched := sched) (faults := faults) _ _ d.bus.clock).ok (s := d.bus) rfl r1
  have k2 := (Chip.read1_clock (sched := sched) (faults := faults) _ _ w1.clock).ok (s := w1) rfl r2
  have hw2 : Timed n p T a q z X bs w2 := (hT.read1 (faults := faults) _ _).ok ((hT.read1 (faults := faults) _ _).ok hd r1) r2
  have e : x = (w2.socks n).ir := (Chip.read1_value (sched := sched) (faults := faults) hn 0x02).ok (s := w1) trivial r2
  have key : ∀ x : U8, x &&& 4 = 0 ↔ ¬ x.getLsbD 2 = true := by decide +kernel
  rcases h3 with ⟨hx, rfl⟩ | ⟨hx, h3⟩
  · refine ⟨rfl, hw2, ?_, by dsimp only; omega⟩
    rcases Nat.lt_or_ge a w3.clock with hlt | hge
    · have := (hw2.after hlt (by omega)).2.2
      unfold Announced at this
      rw [← e] at this
      exact absurd this ((key x).mp hx)
    · exact hge
  · exfalso
    have hlt : a < w2.clock := by
      rcases Nat.lt_or_ge a w2.clock with hlt | hge
      · exact hlt
      · have := (hw2.before hge).2.2
        unfold Announced at this
        rw [← e] at this
        exact absurd ((key x).mpr this) hx
    have hr := (hw2.after hlt (by omega)).2.1
    have hpos : 1 ≤ bs.length := List.length_pos_iff.mpr (hbs.resolve_left (by omega))
    have hst : StableS (fun s => RxFits s ∧ 1 ≤ s.rsr.toNat) := fun s a h => ⟨(act_rxFits h.1 a).1, Nat.le_trans h.2 (act_rxFits h.1 a).2⟩
    obtain ⟨_, s0, h6, _, e0⟩ := (hs_receiveSize (sched := sched) (faults := faults) hn hst (fun _ h => h.1) fuel).ok (s := w2)
      ⟨hw2.fits, by omega⟩ h3
    have := h6.2
    rw [← e0] at this
    exact absurd this (by decide)

theorem due_recvHead (hn : n < 8) {p T a q z : Nat} {X bs : List U8} (hT : Chip.Ticks sched (Timed n p T a q z X bs))
    {u : UdpSocket} (hu : u.socket = sockOf n) {fuel l : Nat} {x : Nat × U16 × UdpHeader} {c c' : Chip}
    (hc : Timed n p T a q z X bs c) (hk : c.clock + 16 ≤ q)
    (h : recvHead (Chip.dev sched faults).bus fuel u l c = (.ok x, c')) :
    Timed n p T a q z X bs c' ∧ a < c'.clock ∧ c'.clock = c.clock + 16 := by
  unfold recvHead Socket.hasInterrupt at h
  obtain ⟨_, c1, h1, h⟩ := M.bind_eq_ok.mp h
  rw [hu] at h
  obtain ⟨b, c2, h2, h⟩ := M.bind_eq_ok.mp h
  have g1 : Timed n p T a q z X bs c1 ∧ c1.clock = c.clock + 1 := by
    unfold UdpSocket.checkStatus Socket.getStatus at h1
    obtain ⟨st, c1', g1, g2⟩ := M.bind_eq_ok.mp h1
    have g1 := M.mapErr_eq_ok.mp g1
    have e : c1' = c1 := by
      generalize Status.tryFrom st = o at g2
      rcases o with _ | o
      · cases g2
      · cases o <;> first | (cases g2; rfl) | cases g2
    subst e
    exact ⟨(hT.read1 (faults := faults) _ _).ok hc g1,
      (Chip.read1_clock (sched := sched) (faults := faults) _ _ c.clock).ok (s := c) rfl g1⟩
  split at h
  · cases h
  rename_i hb
  obtain ⟨y, c2', g3, g4⟩ := M.bind_eq_ok.mp (M.mapErr_eq_ok.mp h2)
  cases g4
  have t2 : Timed n p T a q z X bs c2 := (hT.read1 (faults := faults) _ _).ok g1.1 g3
  have k2 := (Chip.read1_clock (sched := sched) (faults := faults) _ _ c1.clock).ok (s := c1) rfl g3
  have e : y = (c2.socks n).ir := (Chip.read1_value (sched := sched) (faults := faults) hn 0x02).ok (s := c1) trivial g3
  have hlt : a < c2.clock := by
    rcases Nat.lt_or_ge a c2.clock with hlt | hge
    · exact hlt
    · have := (t2.before hge).2.2
      unfold Announced at this
      rw [← e] at this
      have key : ∀ y : U8, ¬ (!decide (y &&& Interrupt.receive.toU8 ≠ 0)) = true → y.getLsbD 2 = true := by decide +kernel
      exact absurd (key y hb) this
  obtain ⟨v, c3, h3, h⟩ := M.bind_eq_ok.mp h
  have h3 := M.mapErr_eq_ok.mp h3
  have t3 : Timed n p T a q z X bs c3 := (ticks_receiveSize hT fuel).ok t2 h3
  have ⟨k3, _⟩ := size_once hn t2.fits hT t2 (fun c' hc' hk' => BitVec.eq_of_toNat_eq <| by
    rw [(hc'.after (by omega) (by omega)).2.1, (t2.after (by omega) (by omega)).2.1]) h3
  split at h
  · cases h
  split at h
  · cases h
  obtain ⟨p', c4, h4, h⟩ := M.bind_eq_ok.mp h
  obtain ⟨hd, c5, h5, h⟩ := M.bind_eq_ok.mp h
  have h4 := M.mapErr_eq_ok.mp h4
  have h5 := M.mapErr_eq_ok.mp h5
  unfold Socket.getRxReadPointer at h4
  have k4 := (Chip.read2_clock (sched := sched) (faults := faults) _ _ c3.clock).ok (s := c3) rfl h4
  have k5 := (Chip.readBuf_clock (sched := sched) (faults := faults) _ _ _ c4.clock).ok (s := c4) rfl h5
  have t5 := (hT.readBuf (faults := faults) _ _ _).ok ((hT.read2 (faults := faults) _ _).ok t3 h4) h5
  generalize UdpHeader.fromArray hd = o at h
  cases o with
  | none => cases h
  | some o =>
    cases h
    have k5 : c'.clock = c4.clock + 8 := k5
    exact ⟨t5, by omega, by omega⟩

theorem due_receive (hn : n < 8) (hf : ∀ i, faults i = none) {p T a q z : Nat} {X bs : List U8} {u : UdpSocket} (hu : u.socket = sockOf n)
    {fuel : Nat} {buf buf' : List U8} {x : Nat × SockAddr} {d d' : Device Chip H}
    (hT : Chip.Ticks sched (Timed n p T a q z X bs)) (h3 : ∀ k, a < k → k < q → news n (sched k) = [])
    (hd : Timed n p T a q z X bs d.bus) (hk : d.bus.clock + (buf.length + 20) ≤ q)
    (h : Device.udpReceive (Chip.dev sched faults).bus fuel u (buf, d) = (.ok x, (buf', d'))) :
    (d'.bus.socks n).arrived = X ++ bs ∧ a < d'.bus.clock ∧ d'.bus.clock ≤ d.bus.clock + (buf.length + 20) ∧
      d.bus.clock + 16 ≤ d'.bus.clock := by
  unfold Device.udpReceive at h
  have h := onSockBus_run h
  obtain ⟨y, ⟨b1, c1⟩, h, hy⟩ := M.bind_eq_ok.mp h
  cases hy
  rw [receive_split] at h
  obtain ⟨p, ⟨b2, c2⟩, h0, h2⟩ := M.bind_eq_ok.mp h
  obtain ⟨h1, e⟩ := M.onSnd_eq_ok.mp h0
  dsimp only at h1 e
  clear h0 h
  subst e
  obtain ⟨t1, k1, k2⟩ := due_recvHead hn hT hu hd (by omega) h1
  obtain ⟨q1, q2, q3⟩ := p
  dsimp only at h2
  have hcost := ((co_recvTail (Meter.chip_on sched faults) u buf.length q1 buf.length q2 q3).run (buf, c2)
    (Nat.le_refl _)).1.2
  have hreach := (moves_recvTail (B := (Chip.dev sched faults).bus) u buf.length q1 q2 q3).run (buf, c2)
  rw [h2] at hcost hreach
  rw [hu] at hreach
  have hcome := reach_ticks hf (come_ticks (Y := X ++ bs) h3) (fun b ad d hfr i hi c hc => come_poke hn hfr i hi c hc) hreach
    ⟨k1, fun hq => (t1.after k1 hq).1⟩
  have hcost : d'.bus.clock ≤ c2.clock + (buf.length + 4) := hcost
  have hclock : c2.clock ≤ d'.bus.clock := reach_ticks (I := fun c => c2.clock ≤ c.clock) hf (clock_ticks _)
    (fun _ _ _ _ _ _ c hc => by rw [Chip.poke_clock]; exact hc) hreach (Nat.le_refl _)
  exact ⟨hcome.arrived (by dsimp only; omega), hcome.late, by omega, by omega⟩

/-! ## In the meantime -/

/-- The RX side, what it has received, and the status are the same. -/
structure Aloof (s s' : Sock) : Prop where
  rx : SameRx s s'
  arrived : s'.arrived = s.arrived
  sr : s'.sr = s.sr

theorem Aloof.timed {p T a q z : Nat} {X bs : List U8} {c c' : Chip} (e : Aloof (c.socks n) (c'.socks n)) (hk : c'.clock = c.clock)
    (h : Timed n p T a q z X bs c) : Timed n p T a q z X bs c' := by
  refine ⟨by rw [hk]; exact h.start, e.rx.proto.trans h.proto, e.rx.size.trans h.size,
    ⟨by rw [e.rx.size]; exact h.fits.size, by rw [e.rx.rsr, e.rx.size]; exact h.fits.fits⟩, ?_, ?_⟩ <;> rw [hk, e.arrived, e.rx.rsr, ← e.rx.announced]
  · exact h.before
  · exact h.after

theorem toFrames_aloof (hn : n < 8) {b : U8} {a : U16} {d : List U8} (h : ToFrames (sockOf n) b a d) (i : Nat)
    (hi : i < d.length) (c : Chip) : Aloof (c.socks n) ((c.poke (b.setWidth 5) (a + BitVec.ofNat 16 i) d[i]).socks n) := by
  have hrx := toFrames_sameRx hn h i hi c
  suffices H : At n (fun s => s.arrived = (c.socks n).arrived ∧ s.sr = (c.socks n).sr) (c.poke (b.setWidth 5) (a + BitVec.ofNat 16 i) d[i]) from
    ⟨hrx, H.1, H.2⟩
  clear hrx
  cases h with
  | send h =>
    cases h with
    | tx a d => exact Chip.poke_tx' (P := fun s => s.arrived = (c.socks n).arrived ∧ s.sr = (c.socks n).sr) hn ⟨rfl, rfl⟩
    | wr x y =>
      refine Chip.poke_reg' (P := fun s => s.arrived = (c.socks n).arrived ∧ s.sr = (c.socks n).sr) hn ?_
      rcases index_two (by rfl) hi with rfl | rfl <;> exact ⟨rfl, rfl⟩
    | ir x hx =>
      refine Chip.poke_reg' (P := fun s => s.arrived = (c.socks n).arrived ∧ s.sr = (c.socks n).sr) hn ?_
      obtain rfl := index_one (by rfl) hi
      exact ⟨rfl, rfl⟩
    | send =>
      refine Chip.poke_reg' (P := fun s => s.arrived = (c.socks n).arrived ∧ s.sr = (c.socks n).sr) hn ?_
      obtain rfl := index_one (by rfl) hi
      exact ⟨rfl, rfl⟩
  | ip d hd =>
    refine Chip.poke_reg' (P := fun s => s.arrived = (c.socks n).arrived ∧ s.sr = (c.socks n).sr) hn ?_
    obtain rfl | rfl | rfl | rfl : i = 0 ∨ i = 1 ∨ i = 2 ∨ i = 3 := by omega
    all_goals exact ⟨rfl, rfl⟩
  | port d hd =>
    refine Chip.poke_reg' (P := fun s => s.arrived = (c.socks n).arrived ∧ s.sr = (c.socks n).sr) hn ?_
    obtain rfl | rfl : i = 0 ∨ i = 1 := by omega
    all_goals exact ⟨rfl, rfl⟩

/-- What `I` is kept by in the meantime. -/
theorem meantime_keeps (hn : n < 8) (hf : ∀ i, faults i = none) {I : Chip → Prop} (hT : Chip.Ticks sched I)
    (hI : ∀ c c' : Chip, Aloof (c.socks n) (c'.socks n) → c'.clock = c.clock → I c → I c') {u u' : UdpSocket} (hu : u.socket = sockOf n) {c c' : Chip}
    (h : Meantime sched faults n u c u' c') (hc : I c) : I c' := by
  have hto : ∀ b a d, ToFrames (sockOf n) b a d → ∀ i (hi : i < d.length) c, I c → I (c.poke (b.setWidth 5) (a + BitVec.ofNat 16 i) d[i]) :=
    fun b a d hfr i hi c hc => hI _ _ (toFrames_aloof hn hfr i hi c) (Chip.poke_clock ..) hc
  cases h with
  | @send H u d d' fuel data h =>
    have hr : Reach (Chip.dev sched faults).bus (SendFrames u.socket) d.bus (Device.udpSend (Chip.dev sched faults).bus fuel u data d).2.bus :=
      (MovesOn.onBus (moves_sendAll u fuel data)).run d
    rw [h, hu] at hr
    exact reach_ticks hf hT hto (hr.mono fun _ _ _ => .send) hc
  | @sendTo H u u' d d' fuel dst data h =>
    have hr := moves_sendTo (B := (Chip.dev sched faults).bus) u fuel (.v4 dst) data d
    rw [h, hu] at hr
    exact reach_ticks hf hT hto hr hc
  | read u c b a d => exact hT.readsOnly (faults := faults) (.read b a d (.refl c)) hc
  | write u c b a d hfo =>
    refine reach_ticks hf hT (F := Foreign n) (fun b a d hfr i hi c hc => hI _ _ ?_ (Chip.poke_clock ..) hc) (.write (.refl c) hfo) hc
    rw [foreign_poke hfr i hi c]
    exact ⟨⟨rfl, rfl, rfl, .rfl⟩, rfl, rfl⟩

end W5500.Spec
