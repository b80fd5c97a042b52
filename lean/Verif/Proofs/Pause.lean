import Verif.Spec.Pause
import Verif.Proofs.Pace
import Verif.Proofs.Request
/-! # Nothing is lost if it fits -/

namespace W5500.Spec
open W5500 socketn Sock
variable {E ε α H : Type} {sched : Nat → List (Nat × Act)} {faults : Nat → Option (E × Nat)} {n : Nat}

theorem bytesFor_cons (n : Nat) (e : Nat × Act) (l : List (Nat × Act)) : bytesFor n (e :: l) = bytesFor n [e] ++ bytesFor n l := by
  obtain ⟨i, a⟩ := e
  cases a <;> simp [bytesFor]

theorem coming_mono {t g g' : Nat} (h : g ≤ g') : (coming sched n t g).length ≤ (coming sched n t g').length := by
  induction g' with
  | zero => rw [Nat.le_zero.mp h]; exact Nat.le_refl _
  | succ k ih =>
    rcases Nat.lt_or_ge g (k + 1) with h1 | h1
    · rw [coming, List.length_append]
      exact Nat.le_trans (ih (by omega)) (Nat.le_add_right _ _)
    · rw [Nat.le_antisymm h h1]; exact Nat.le_refl _

theorem coming_add (t g g' : Nat) : coming sched n t (g + g') = coming sched n t g ++ coming sched n (t + g) g' := by
  induction g' with
  | zero => rw [Nat.add_zero, coming, List.append_nil]
  | succ k ih => rw [← Nat.add_assoc, coming, ih, coming, List.append_assoc, Nat.add_assoc]

theorem push_known {s : Sock} (hf : RxFits s) {L : Nat} (hL : s.rsr.toNat + L ≤ s.arrived.length) (bs : List U8) :
    (s.push bs).rsr.toNat + L ≤ (s.push bs).arrived.length := by
  by_cases h : s.rsr.toNat + bs.length ≤ s.rxSize
  · rw [(push_queue hf h).2, push, if_pos h]
    show _ ≤ (s.arrived ++ bs).length
    rw [List.length_append]
    omega
  · rw [push, if_neg h]
    exact hL

theorem act_known {s : Sock} (hf : RxFits s) {L : Nat} (hL : s.rsr.toNat + L ≤ s.arrived.length) (a : Act) :
    (s.act a).rsr.toNat + L ≤ (s.act a).arrived.length := by
  cases a <;> simp only [act] <;> (try split) <;> first | exact hL | exact push_known hf hL _

/-- What comes to a TCP socket is stored if there is room for all of it. -/
theorem gather_act {s : Sock} (hp : s.proto = 1) {L : Nat} (hL : s.rsr.toNat + L ≤ s.arrived.length) (a : Act)
    (hr : s.arrived.length + (bytesFor n [(n, a)]).length ≤ s.rxSize + L) :
    (s.act a).arrived = s.arrived ++ bytesFor n [(n, a)] ∧ (∀ bs, a = .arrive bs → (s.act a).Announced) := by
  cases a with
  | arrive bs =>
    simp only [bytesFor, if_pos, List.append_nil] at hr ⊢
    have e : s.act (.arrive bs) = s.push bs := by simp only [act]; rw [if_pos hp]
    have hroom : s.rsr.toNat + bs.length ≤ s.rxSize := by omega
    rw [e]
    refine ⟨?_, fun _ _ => stored_announced hroom⟩
    rw [push, if_pos hroom]
  | datagram d => simp [act, hp, bytesFor]
  | frame f => simp [act, hp, bytesFor]
  | raise bits => simp [act, bytesFor]
  | status x => simp [act, bytesFor]
  | transmit k => simp only [act, bytesFor]; split <;> simp
  | ack k => simp only [act, bytesFor]; split <;> simp
  | emit b => simp only [act, bytesFor]; split <;> simp

theorem gather_events {l : List (Nat × Act)} {L z : Nat} (c : Chip) (hp : (c.socks n).proto = 1) (hz : (c.socks n).rxSize = z)
    (hf : RxFits (c.socks n)) (hL : (c.socks n).rsr.toNat + L ≤ (c.socks n).arrived.length)
    (hr : (c.socks n).arrived.length + (bytesFor n l).length ≤ z + L) :
    ((l.foldl Chip.event c).socks n).arrived = (c.socks n).arrived ++ bytesFor n l ∧
    (((c.socks n).Announced ∨ ∃ bs, (n, .arrive bs) ∈ l) → ((l.foldl Chip.event c).socks n).Announced) := by
  induction l generalizing c with
  | nil => exact ⟨(List.append_nil _).symm, fun h => h.elim id fun ⟨_, h⟩ => nomatch h⟩
  | cons e l ih =>
    obtain ⟨i, a⟩ := e
    rw [List.foldl_cons]
    rw [bytesFor_cons, List.length_append] at hr
    by_cases hi : i = n
    · subst hi
      have e1 : (c.event (i, a)).socks i = (c.socks i).act a := Chip.setSock_self _ _ _
      obtain ⟨g1, g2⟩ := gather_act (n := i) hp hL a (by rw [hz]; omega)
      obtain ⟨h1, h2⟩ := ih (c.event (i, a)) (by rw [e1, act_proto, hp]) (by rw [e1, act_rxSize, hz]) (by rw [e1]; exact (act_rxFits hf a).1)
        (by rw [e1]; exact act_known hf hL a) (by rw [e1, g1, List.length_append]; omega)
      refine ⟨by rw [h1, e1, g1, bytesFor_cons i (i, a) l, List.append_assoc], fun h => h2 ?_⟩
      rw [e1]
      rcases h with h | ⟨bs, h⟩
      · exact .inl (announced_act a h)
      · rcases List.mem_cons.mp h with h | h
        · injection h with _ h
          exact .inl (g2 bs h.symm)
        · exact .inr ⟨bs, h⟩
    · have e1 : (c.event (i, a)).socks n = c.socks n := Chip.setSock_other _ _ _ _ (Ne.symm hi)
      have e2 : bytesFor n [(i, a)] = [] := by cases a <;> simp [bytesFor, hi]
      obtain ⟨h1, h2⟩ := ih (c.event (i, a)) (by rw [e1, hp]) (by rw [e1, hz]) (by rw [e1]; exact hf) (by rw [e1]; exact hL)
        (by rw [e1]; omega)
      refine ⟨by rw [h1, e1, bytesFor_cons n (i, a) l, e2, List.nil_append], fun h => h2 ?_⟩
      rw [e1]
      rcases h with h | ⟨bs, h⟩
      · exact .inl h
      · rcases List.mem_cons.mp h with h | h
        · injection h with h _
          exact absurd h.symm hi
        · exact .inr ⟨bs, h⟩

/-- Since time `t`, when `L` bytes had been read and `X` had arrived, everything has been stored, up to the events of time `a`. -/
structure Gathers (sched : Nat → List (Nat × Act)) (n t a z L : Nat) (X : List U8) (c : Chip) : Prop where
  late : t ≤ c.clock
  proto : (c.socks n).proto = 1
  size : (c.socks n).rxSize = z
  fits : RxFits (c.socks n)
  known : (c.socks n).rsr.toNat + L ≤ (c.socks n).arrived.length
  upto : c.clock ≤ a + 1 → (c.socks n).arrived = X ++ coming sched n t (c.clock - t)
  beyond : a < c.clock → X ++ coming sched n t (a + 1 - t) <+: (c.socks n).arrived

theorem arrived_mono (s : Sock) (a : Act) : s.arrived <+: (s.act a).arrived := by
  cases a <;> simp only [act] <;> (try split) <;> first
    | exact List.prefix_rfl
    | (unfold push; split <;> first | exact List.prefix_rfl | exact List.prefix_append _ _)

theorem arrived_events {l : List (Nat × Act)} (c : Chip) : (c.socks n).arrived <+: ((l.foldl Chip.event c).socks n).arrived := by
  induction l generalizing c with
  | nil => exact List.prefix_rfl
  | cons e l ih =>
    refine List.IsPrefix.trans ?_ (ih (c.event e))
    unfold Chip.event
    by_cases hn : e.1 = n
    · rw [hn, Chip.setSock_self]
      exact arrived_mono _ _
    · rw [Chip.setSock_other _ _ _ _ (Ne.symm hn)]
      exact List.prefix_rfl

theorem gathers_tick {t a z L : Nat} {X : List U8} (hcap : X.length + (coming sched n t (a + 1 - t)).length ≤ z + L) {c : Chip}
    (h : Gathers sched n t a z L X c) :
    Gathers sched n t a z L X (c.tick sched) ∧
    (c.clock ≤ a → (∃ bs, (n, .arrive bs) ∈ sched c.clock) → ((c.tick sched).socks n).Announced) := by
  have hst : StableS (fun s => ((s.proto = 1 ∧ s.rxSize = z) ∧ RxFits s) ∧ s.rsr.toNat + L ≤ s.arrived.length) := fun s a h =>
    ⟨⟨⟨(act_proto s a).trans h.1.1.1, (act_rxSize s a).trans h.1.1.2⟩, (act_rxFits h.1.2 a).1⟩, act_known h.1.2 h.2 a⟩
  have hs := (hst.stays (sched := sched) (n := n)).ticks.tick c ⟨⟨⟨h.proto, h.size⟩, h.fits⟩, h.known⟩
  have hlate := h.late
  have now : c.clock ≤ a → ((c.tick sched).socks n).arrived = X ++ coming sched n t (c.clock + 1 - t) ∧
      ((∃ bs, (n, .arrive bs) ∈ sched c.clock) → ((c.tick sched).socks n).Announced) := by
    intro hk
    have e0 := h.upto (by omega)
    have e1 : coming sched n t (c.clock + 1 - t) = coming sched n t (c.clock - t) ++ bytesFor n (sched c.clock) := by
      rw [show c.clock + 1 - t = (c.clock - t) + 1 by omega, coming, show t + (c.clock - t) = c.clock by omega]
    have hm := coming_mono (sched := sched) (n := n) (t := t) (g := c.clock + 1 - t) (g' := a + 1 - t) (by omega)
    rw [e1, List.length_append] at hm
    obtain ⟨g1, g2⟩ := gather_events (l := sched c.clock) c h.proto h.size h.fits h.known (by rw [e0, List.length_append]; omega)
    refine ⟨?_, fun hx => g2 (.inr hx)⟩
    rw [e1, ← List.append_assoc, ← e0]
    exact g1
  refine ⟨⟨by rw [Chip.tick_clock]; exact Nat.le_succ_of_le h.late, hs.1.1.1, hs.1.1.2, hs.1.2, hs.2, ?_, ?_⟩, fun hk => (now hk).2⟩
  · rw [Chip.tick_clock]
    exact fun hk => (now (by omega)).1
  · rw [Chip.tick_clock]
    intro hk
    rcases Nat.lt_or_ge a c.clock with hlt | hge
    · exact (h.beyond hlt).trans (arrived_events c)
    · rw [(now hge).1, show c.clock = a by omega]
      exact List.prefix_rfl

theorem gathers_ticks {t a z L : Nat} {X : List U8} (hcap : X.length + (coming sched n t (a + 1 - t)).length ≤ z + L) :
    Chip.Ticks sched (Gathers sched n t a z L X) :=
  ⟨fun _ h => (gathers_tick hcap h).1, fun _ _ h => ⟨h.late, h.proto, h.size, h.fits, h.known, h.upto, h.beyond⟩⟩

/-- What leaves the RX side alone, leaves this. -/
theorem Gathers.keep {t a z L : Nat} {X : List U8} {c c' : Chip} (h : Gathers sched n t a z L X c) (h0 : c'.clock = c.clock)
    (h1 : (c'.socks n).proto = (c.socks n).proto) (h2 : (c'.socks n).rxSize = (c.socks n).rxSize)
    (h3 : (c'.socks n).rsr.toNat ≤ (c.socks n).rsr.toNat) (h4 : (c'.socks n).arrived = (c.socks n).arrived) :
    Gathers sched n t a z L X c' := by
  refine ⟨by rw [h0]; exact h.late, h1.trans h.proto, h2.trans h.size, ⟨by rw [h2]; exact h.fits.size, ?_⟩, ?_, ?_, ?_⟩
  · rw [h2]; exact Nat.le_trans h3 h.fits.fits
  · rw [h4]
    have := h.known
    omega
  · rw [h0, h4]; exact h.upto
  · rw [h0, h4]; exact h.beyond

/-- The write frames of sending do not disturb it. -/
theorem gathers_send {t a z L : Nat} {X : List U8} (hn : n < 8) {b : U8} {ad : U16} {d : List U8} (hfr : SendFrames (sockOf n) b ad d)
    (i : Nat) (hi : i < d.length) (c : Chip) (hc : Gathers sched n t a z L X c) :
    Gathers sched n t a z L X (c.poke (b.setWidth 5) (ad + BitVec.ofNat 16 i) d[i]) := by
  have e := sendFrames_sameRx hn hfr i hi c
  refine hc.keep (Chip.poke_clock ..) e.proto e.size (Nat.le_of_eq (congrArg BitVec.toNat e.rsr)) ?_
  cases hfr with
  | tx a d => exact Chip.poke_tx' (P := fun s => s.arrived = (c.socks n).arrived) hn rfl
  | wr x y =>
    refine Chip.poke_reg' (P := fun s => s.arrived = (c.socks n).arrived) hn ?_
    rcases index_two (by rfl) hi with rfl | rfl <;> rfl
  | ir x hx =>
    refine Chip.poke_reg' (P := fun s => s.arrived = (c.socks n).arrived) hn ?_
    obtain rfl := index_one (by rfl) hi
    rfl
  | send =>
    refine Chip.poke_reg' (P := fun s => s.arrived = (c.socks n).arrived) hn ?_
    obtain rfl := index_one (by rfl) hi
    rfl

/-- Sending does not. -/
theorem send_gathers {t a z L : Nat} {X : List U8} (hn : n < 8) (hf : ∀ i, faults i = none)
    (hcap : X.length + (coming sched n t (a + 1 - t)).length ≤ z + L) {c c' : Chip}
    (h : Reach (Chip.dev sched faults).bus (SendFrames (sockOf n)) c c') (hc : Gathers sched n t a z L X c) :
    Gathers sched n t a z L X c' :=
  reach_ticks hf (gathers_ticks hcap) (fun _ _ _ hfr i hi c hc => gathers_send hn hfr i hi c hc) h hc

/-- ... and what has come by the end of sending is announced. -/
theorem send_announced {t a z L : Nat} {X : List U8} (hn : n < 8) (hf : ∀ i, faults i = none)
    (hcap : X.length + (coming sched n t (a + 1 - t)).length ≤ z + L) (ha : ∃ bs, (n, .arrive bs) ∈ sched a) {c c' : Chip}
    (h : Reach (Chip.dev sched faults).bus (SendFrames (sockOf n)) c c')
    (hc : Gathers sched n t a z L X c ∧ (a < c.clock → (c.socks n).Announced)) :
    Gathers sched n t a z L X c' ∧ (a < c'.clock → (c'.socks n).Announced) := by
  have hT := gathers_ticks (sched := sched) (n := n) hcap
  refine reach_ticks (I := fun c => Gathers sched n t a z L X c ∧ (a < c.clock → (c.socks n).Announced)) hf ⟨fun c h => ?_, fun c k h =>
    ⟨hT.txn c k h.1, h.2⟩⟩ (fun b ad d hfr i hi c hc => ?_) h hc
  · obtain ⟨g1, g2⟩ := gathers_tick hcap h.1
    refine ⟨g1, fun hk => ?_⟩
    rw [Chip.tick_clock] at hk
    rcases Nat.lt_or_ge a c.clock with hlt | hge
    · have hP : StableS Announced := fun s a h => announced_act a h
      exact (hP.stays (sched := sched) (n := n)).ticks.tick c (h.2 hlt)
    · have e : c.clock = a := by omega
      exact g2 hge (by rw [e]; exact ha)
  · refine ⟨gathers_send hn hfr i hi c hc.1, fun hk => ?_⟩
    rw [Chip.poke_clock] at hk
    exact (sendFrames_sameRx hn hfr i hi c).announced.mp (hc.2 hk)

/-- Sn_RX_RD is `k` past the released point, and at least that much waits. -/
def Advancing (k : Nat) (s : Sock) : Prop := RxFits s ∧ s.rxRdReg = s.rxRd + BitVec.ofNat 16 k ∧ k ≤ s.rsr.toNat

theorem stable_advancing (k : Nat) : StableS (Advancing k) := fun s a h =>
  ⟨(act_rxFits h.1 a).1, by rw [act_rxRdReg, act_rxRd]; exact h.2.1, Nat.le_trans h.2.2 (act_rxFits h.1 a).2⟩

/-- The write frames of receiving, other than that of the command. -/
theorem gathers_poke {t a z L : Nat} {X : List U8} (hn : n < 8) {b : U8} {ad : U16} {d : List U8} (h : GetFrames (sockOf n) b ad d)
    (hr : ad ≠ 0x01) (i : Nat) (hi : i < d.length) (c : Chip) (hc : Gathers sched n t a z L X c) :
    Gathers sched n t a z L X (c.poke (b.setWidth 5) (ad + BitVec.ofNat 16 i) d[i]) := by
  obtain ⟨h1, h2⟩ := getFrames_poke hn h i hi c
  suffices H : At n (fun s => s.proto = (c.socks n).proto ∧ s.rsr = (c.socks n).rsr) (c.poke (b.setWidth 5) (ad + BitVec.ofNat 16 i) d[i]) from
    hc.keep (Chip.poke_clock ..) H.1 h1 (Nat.le_of_eq (congrArg BitVec.toNat H.2)) h2
  cases h with
  | rd x y =>
    refine Chip.poke_reg' (P := fun s => s.proto = (c.socks n).proto ∧ s.rsr = (c.socks n).rsr) hn ?_
    rcases index_two (by rfl) hi with rfl | rfl <;> exact ⟨rfl, rfl⟩
  | ir x =>
    refine Chip.poke_reg' (P := fun s => s.proto = (c.socks n).proto ∧ s.rsr = (c.socks n).rsr) hn ?_
    obtain rfl := index_one (by rfl) hi
    exact ⟨rfl, rfl⟩
  | recv => exact absurd rfl hr

/-- ... and that of the command. -/
theorem gathers_recv {t a z L k : Nat} {X : List U8} (hn : n < 8) (c : Chip) (hc : Gathers sched n t a z L X c)
    (hk : Advancing k (c.socks n)) : Gathers sched n t a z L X (c.poke ((sockOf n).register.setWidth 5) 0x01 0x40) := by
  suffices H : At n (fun s => s.proto = (c.socks n).proto ∧ s.rxSize = (c.socks n).rxSize ∧ s.rsr = (c.socks n).rxWr - (c.socks n).rxRdReg ∧
      s.arrived = (c.socks n).arrived) (c.poke ((sockOf n).register.setWidth 5) 0x01 0x40) by
    obtain ⟨h1, h2, h3, h4⟩ := H
    refine hc.keep (Chip.poke_clock ..) h1 h2 ?_ h4
    rw [h3, hk.2.1, sub_add_toNat hk.2.2]
    exact Nat.sub_le _ _
  exact Chip.poke_reg' (P := fun s => s.proto = (c.socks n).proto ∧ s.rxSize = (c.socks n).rxSize ∧
    s.rsr = (c.socks n).rxWr - (c.socks n).rxRdReg ∧ s.arrived = (c.socks n).arrived) hn ⟨rfl, rfl, rfl, rfl⟩

/-- Receiving does not disturb it either. -/
theorem gathers_tail {t a z L v k : Nat} {X A : List U8} (hn : n < 8)
    (hcap : X.length + (coming sched n t (a + 1 - t)).length ≤ z + L) {b b' : List U8} {c c' : Chip}
    (hc : Gathers sched n t a z L X c) (hA : At n (RxReady A) c) (hv : v ≤ (c.socks n).rsr.toNat)
    (h : tcpTail (Chip.dev sched faults).bus ⟨sockOf n⟩ v (b, c) = (.ok k, (b', c'))) :
    Gathers sched n t a z L X c' := by
  have hT := gathers_ticks (sched := sched) (n := n) hcap
  have hk := tcpTail_len h
  unfold tcpTail at h
  obtain ⟨s, s', h1, h⟩ := M.bind_eq_ok.mp h
  rw [M.get_eq_ok] at h1
  obtain ⟨rfl, rfl⟩ := h1
  dsimp only at h
  have hkk : (if v > b.length then b.length else v) = k := by rw [hk]; split <;> omega
  rw [hkk] at h
  obtain ⟨p, ⟨b1, c1⟩, h1, h⟩ := M.bind_eq_ok.mp h
  obtain ⟨_, ⟨b2, c2⟩, h2, h⟩ := M.bind_eq_ok.mp h
  obtain ⟨_, ⟨b3, c3⟩, h3, h⟩ := M.bind_eq_ok.mp h
  obtain ⟨_, ⟨b4, c4⟩, h4, h⟩ := M.bind_eq_ok.mp h
  obtain ⟨_, ⟨b5, c5⟩, h5, h⟩ := M.bind_eq_ok.mp h
  simp only [pure, M.pure, Prod.mk.injEq] at h
  obtain ⟨_, _, rfl⟩ := h
  obtain ⟨h1, _⟩ := M.onSnd_eq_ok.mp h1
  obtain ⟨_, bp, h2, _⟩ := M.withPrefix_eq_ok.mp h2
  obtain ⟨h3, _⟩ := M.onSnd_eq_ok.mp h3
  obtain ⟨h4, _⟩ := M.onSnd_eq_ok.mp h4
  obtain ⟨h5, _⟩ := M.onSnd_eq_ok.mp h5
  rw [M.mapErr_eq_ok] at h1 h2 h3 h4 h5
  dsimp only at h1 h2 h3 h4 h5
  -- the read pointer
  have hP : StableS (fun s => RxReady A s ∧ v ≤ s.rsr.toNat) := fun s a h =>
    ⟨stable_rxReady A s a h.1, Nat.le_trans h.2 (rsr_mono h.1.core (.act s a))⟩
  unfold Socket.getRxReadPointer at h1
  obtain ⟨⟨i1, i2⟩, ep⟩ := (hs_readMem (sched := sched) (faults := faults) hn hP _ (.inr rfl)).ok (s := c) ⟨hA, hv⟩ h1
  have g1 := (hT.read2 (faults := faults) _ _).ok hc h1
  have ep : p = (c1.socks n).rxRd := Eq.trans ep i1.reg
  -- the bytes
  have hm : ReadsOnly (Chip.dev sched faults).bus c1 c2 := by
    have hm := (MovesOn.readSlice (B := (Chip.dev sched faults).bus) (F := fun _ _ _ => False) (b := (sockOf n).rxBuffer) (a := p)).run
      (b1.take k, c1)
    rw [h2] at hm
    exact hm
  have g2 := hT.readsOnly (faults := faults) hm g1
  have hQ : StableS (fun s => (RxCore A s ∧ (c1.socks n).queue.take k <+: s.queue) ∧ s.rxRd = p) :=
    (stable_queue A _).and fun s a h => by rw [act_rxRd]; exact h
  have i3 := (hQ.stays (sched := sched) (n := n)).ticks.readsOnly (faults := faults) hm
    ⟨⟨i1.core, List.take_prefix _ _⟩, ep.symm⟩
  -- the new read pointer
  have hlen : ((c1.socks n).queue.take k).length = k := by rw [List.length_take, Sock.queue_length]; omega
  have i4 := (hs_setRxRd (sched := sched) (faults := faults) hn (G := fun _ => True) (fun _ _ _ => trivial)
    (fun _ _ _ _ _ => trivial) A ((c1.socks n).queue.take k) p (p + BitVec.ofNat 16 k)).ok (s := c2) ⟨trivial, i3⟩ h3
  have adv : Advancing k (c3.socks n) := by
    obtain ⟨⟨_, ⟨j1, j2⟩, j3⟩, j4⟩ := i4
    have := j2.length_le
    rw [hlen, Sock.queue_length] at this
    exact ⟨j1.rxFits, by rw [j3]; exact j4, this⟩
  unfold Socket.setRxReadPointer at h3
  have g3 : Gathers sched n t a z L X c3 :=
    (hT.write (faults := faults) _ _ _ (gathers_poke hn (.rd _ _) (by decide))).ok g2 h3
  -- RECV
  unfold Socket.command at h4
  have g4 : Gathers sched n t a z L X c4 := (Chip.write_ok (sched := sched) (faults := faults) _ _ _
    (P := fun c => Gathers sched n t a z L X c ∧ At n (Advancing k) c) (fun c hc =>
      gathers_recv hn _ (gathers_tick hcap (hT.txn c (c.txn + 1) hc.1)).1
        (((stable_advancing k).stays (sched := sched) (n := n)).ticks.tick { c with txn := c.txn + 1 } hc.2))).ok ⟨g3, adv⟩ h4
  -- clearing the interrupt
  unfold Socket.resetInterrupt at h5
  exact (hT.write (faults := faults) _ _ _ (gathers_poke hn (.ir _) (by decide))).ok g4 h5

/-- A whole `receive`. -/
theorem gathers_receive {t a z L : Nat} {X S A : List U8} (hn : n < 8) (hcap : X.length + (coming sched n t (a + 1 - t)).length ≤ z + L)
    {fuel k : Nat} {buf buf' : List U8} {d d' : Device Chip H} (hd : Gathers sched n t a z L X d.bus) (hi : At n (TcpIdle S A) d.bus)
    (h : Device.tcpReceive (Chip.dev sched faults).bus fuel ⟨sockOf n⟩ (buf, d) = (.ok k, (buf', d'))) :
    Gathers sched n t a z L X d'.bus := by
  have hT := gathers_ticks (sched := sched) (n := n) hcap
  have hS := (stable_tcpIdle S A).stays (sched := sched) (n := n) |>.ticks
  obtain ⟨x, c1, y, c2, h1, h2, h3⟩ := recv_split (onSockBus_run h)
  have g2 := (hT.read1 (faults := faults) _ _).ok ((hT.read1 (faults := faults) _ _).ok hd h1) h2
  have i2 := (hS.read1 (faults := faults) _ _).ok ((hS.read1 (faults := faults) _ _).ok hi h1) h2
  rcases h3 with ⟨_, _, e⟩ | ⟨_, v, c3, h3, h4⟩
  · rw [show d'.bus = c2 from e]
    exact g2
  · obtain ⟨i3, s0, j1, j2, rfl⟩ := (hs_receiveSize (sched := sched) (faults := faults) hn (stable_tcpIdle S A)
      (fun _ h => h.rx.core.rxFits) fuel).ok (s := c2) i2 h3
    exact gathers_tail hn hcap ((ticks_receiveSize hT fuel).ok g2 h3) i3.rx (rsr_mono j1.rx.core j2) h4

/-! ## The pause -/

/-- From time `B` on, nothing comes for a while: reading the received size ends soon. -/
theorem size_soon (hn : n < 8) {B a fuel : Nat} {v : U16} {c c' : Chip} (hfit : RxFits (c.socks n)) (hk : c.clock ≤ B)
    (hq : ∀ k, B ≤ k → k < a → news n (sched k) = []) (hB : B + 8 ≤ a)
    (h : (sockOf n).getReceiveSize (Chip.dev sched faults).bus fuel c = (.ok v, c')) : c'.clock ≤ B + 8 := by
  induction fuel generalizing c with
  | zero => cases h
  | succ fuel ih =>
    unfold Socket.getReceiveSize at h
    obtain ⟨x, c1, h1, h⟩ := M.bind_eq_ok.mp h
    obtain ⟨y, c2, h2, h⟩ := M.bind_eq_ok.mp h
    have k1 := (Chip.read2_clock (sched := sched) (faults := faults) _ _ c.clock).ok (s := c) rfl h1
    have k2 := (Chip.read2_clock (sched := sched) (faults := faults) _ _ c1.clock).ok (s := c1) rfl h2
    have hst : StableS RxFits := fun s a h => (act_rxFits h a).1
    have hst := hst.stays (sched := sched) (n := n) |>.ticks
    have f2 : RxFits (c2.socks n) := (hst.read2 (faults := faults) _ _).ok ((hst.read2 (faults := faults) _ _).ok hfit h1) h2
    split at h
    · cases h
      omega
    · rcases Nat.lt_or_ge c2.clock B with hlt | hge
      · exact ih f2 (Nat.le_of_lt hlt) h
      · have hT : Chip.Ticks sched (fun c => B ≤ c.clock ∧ (c.clock ≤ a → (c.socks n).rsr = (c2.socks n).rsr)) := by
          refine ⟨fun c h => ⟨by rw [Chip.tick_clock]; omega, fun hk => ?_⟩, fun c i h => h⟩
          rw [Chip.tick_clock] at hk
          exact (lull_events (hq _ h.1 (by omega)) c).rsr.trans (h.2 (by omega))
        have := (size_once hn f2 hT ⟨hge, fun _ => rfl⟩ (fun c' h hk => h.2 (by omega)) h).1
        omega

/-- A `receive` that begins before the pause, or with it, ends in it. -/
theorem receive_soon (hn : n < 8) (hf : ∀ i, faults i = none) {b a z : Nat} {S A : List U8} {fuel k : Nat} {buf buf' : List U8} {d d' : Device Chip H}
    (hi : At n (TcpIdle S A) d.bus) (hz : (d.bus.socks n).rxSize = z) (hk : d.bus.clock ≤ b)
    (hq : ∀ k, b ≤ k → k < a → news n (sched k) = []) (hb : b + (z + 16) ≤ a)
    (h : Device.tcpReceive (Chip.dev sched faults).bus fuel ⟨sockOf n⟩ (buf, d) = (.ok k, (buf', d'))) :
    d.bus.clock + 2 ≤ d'.bus.clock ∧ d'.bus.clock ≤ a := by
  obtain ⟨x, c1, y, c2, h1, h2, h3⟩ := recv_split (onSockBus_run h)
  have k1 := (Chip.read1_clock (sched := sched) (faults := faults) _ _ d.bus.clock).ok (s := d.bus) rfl h1
  have k2 := (Chip.read1_clock (sched := sched) (faults := faults) _ _ c1.clock).ok (s := c1) rfl h2
  have hP : StableS fun s => TcpIdle S A s ∧ s.rxSize = z := fun s a h => ⟨stable_tcpIdle S A s a h.1, (act_rxSize s a).trans h.2⟩
  have hS := hP.stays (sched := sched) (n := n) |>.ticks
  have i2 := (hS.read1 (faults := faults) _ _).ok ((hS.read1 (faults := faults) _ _).ok ⟨hi, hz⟩ h1) h2
  rcases h3 with ⟨_, _, e⟩ | ⟨_, v, c3, h3, h4⟩
  · rw [show d'.bus = c2 from e]
    omega
  · have k3 := size_soon hn (B := b + 2) i2.1.rx.core.rxFits (by omega) (fun k hk => hq k (by omega)) (by omega) h3
    obtain ⟨_, s0, ⟨j1, j2⟩, _, e⟩ := (hs_receiveSize (sched := sched) (faults := faults) hn hP (fun _ h => h.1.rx.core.rxFits) fuel).ok
      (s := c2) i2 h3
    have hv : v.toNat ≤ z := by rw [e, ← j2]; exact j1.rx.core.fits
    have hcost := ((co_tcpTail (Meter.chip_on sched faults) ⟨sockOf n⟩ v.toNat buf.length).run (buf, c3) (Nat.le_refl _)).1.2
    rw [h4] at hcost
    have hcost : d'.bus.clock ≤ c3.clock + (v.toNat + 6) := hcost
    have k4 : c2.clock ≤ c3.clock := (ticks_receiveSize (clock_ticks c2.clock) fuel).ok (Nat.le_refl _) h3
    have hm := (moves_tcpTail (B := (Chip.dev sched faults).bus) ⟨sockOf n⟩ v.toNat).run (buf, c3)
    rw [h4] at hm
    have k5 : c3.clock ≤ d'.bus.clock := reach_ticks hf (clock_ticks c3.clock)
      (fun b ad d hfr i hi c hc => by rw [Chip.poke_clock]; exact hc) hm (Nat.le_refl _)
    omega

/-- In the pause nothing is announced; after the piece that ends it, everything is there, and announced. -/
structure Hushed (sched : Nat → List (Nat × Act)) (n t a z L T : Nat) (X : List U8) (c : Chip) : Prop where
  gathers : Gathers sched n t a z L X c
  late : T ≤ c.clock
  before : c.clock ≤ a → ¬ (c.socks n).Announced
  after : a < c.clock → (c.socks n).Announced

theorem hushed_ticks {t a z L T : Nat} {X : List U8} (hcap : X.length + (coming sched n t (a + 1 - t)).length ≤ z + L)
    (hq : ∀ k, T ≤ k → k < a → news n (sched k) = []) (ha : ∃ bs, (n, .arrive bs) ∈ sched a) :
    Chip.Ticks sched (Hushed sched n t a z L T X) := by
  have hT := gathers_ticks (sched := sched) (n := n) hcap
  refine ⟨fun c h => ?_, fun c k h => ⟨hT.txn c k h.gathers, h.late, h.before, h.after⟩⟩
  obtain ⟨g1, g2⟩ := gathers_tick hcap h.gathers
  have hlate := h.late
  refine ⟨g1, by rw [Chip.tick_clock]; omega, fun hk hx => ?_, fun hk => ?_⟩ <;> rw [Chip.tick_clock] at hk
  · exact h.before (by omega) ((lull_events (hq _ hlate (by omega)) c).announced.mp hx)
  · rcases Nat.lt_or_ge a c.clock with hlt | hge
    · have hP : StableS Announced := fun s a h => announced_act a h
      exact (hP.stays (sched := sched) (n := n)).ticks.tick c (h.after hlt)
    · have e : c.clock = a := by omega
      exact g2 hge (by rw [e]; exact ha)

/-- A `receive` that begins in the pause returns 0 and ends in it, or it brings everything. -/
theorem receive_hushed (hn : n < 8) {t a z L T m : Nat} {X S A : List U8} {fuel k : Nat} {buf buf' : List U8} {d d' : Device Chip H}
    (hT : Chip.Ticks sched (Hushed sched n t a z L T X)) (hi : At n (TcpIdle S A) d.bus) (hd : Hushed sched n t a z L T X d.bus)
    (hm : A.length + m ≤ (X ++ coming sched n t (a + 1 - t)).length)
    (h : Device.tcpReceive (Chip.dev sched faults).bus fuel ⟨sockOf n⟩ (buf, d) = (.ok k, (buf', d'))) :
    (k = 0 ∧ Hushed sched n t a z L T X d'.bus ∧ d.bus.clock + 2 ≤ d'.bus.clock ∧ d'.bus.clock ≤ a) ∨ min buf.length m ≤ k := by
  obtain ⟨x, c1, y, c2, h1, h2, h3⟩ := recv_split (onSockBus_run h)
  have k1 := (Chip.read1_clock (sched := sched) (faults := faults) _ _ d.bus.clock).ok (s := d.bus) rfl h1
  have k2 := (Chip.read1_clock (sched := sched) (faults := faults) _ _ c1.clock).ok (s := c1) rfl h2
  have hS := (stable_tcpIdle S A).stays (sched := sched) (n := n) |>.ticks
  have g2 := (hT.read1 (faults := faults) _ _).ok ((hT.read1 (faults := faults) _ _).ok hd h1) h2
  have i2 := (hS.read1 (faults := faults) _ _).ok ((hS.read1 (faults := faults) _ _).ok hi h1) h2
  have e : y = (c2.socks n).ir := (Chip.read1_value (sched := sched) (faults := faults) hn 0x02).ok (s := c1) trivial h2
  rcases h3 with ⟨hy, rfl, e5⟩ | ⟨hy, v, c3, h3, h4⟩
  · left
    have hge : c2.clock ≤ a := by
      refine Nat.not_lt.mp fun hlt => ?_
      have := g2.after hlt
      unfold Announced at this
      rw [← e, hy] at this
      exact nomatch this
    rw [show d'.bus = c2 from e5]
    exact ⟨rfl, g2, by omega, hge⟩
  · right
    have hlt : a < c2.clock := by
      refine Nat.not_le.mp fun hge => g2.before hge ?_
      unfold Announced
      rw [← e, hy]
    have hlen := (g2.gathers.beyond hlt).length_le
    have harr := congrArg List.length i2.rx.core.arrived
    rw [List.length_append, Sock.queue_length] at harr
    have hst : StableS (fun s => RxFits s ∧ m ≤ s.rsr.toNat) := fun s a h => ⟨(act_rxFits h.1 a).1, Nat.le_trans h.2 (act_rxFits h.1 a).2⟩
    obtain ⟨_, s0, h6, _, e0⟩ := (hs_receiveSize (sched := sched) (faults := faults) hn hst (fun _ h => h.1) fuel).ok (s := c2)
      ⟨i2.rx.core.rxFits, by omega⟩ h3
    have := h6.2
    rw [tcpTail_len h4, e0]
    omega

/-- What is known of the bytes in the end. -/
theorem Gathers.same {t a z L : Nat} {X : List U8} {c : Chip} (h : Gathers sched n t a z L X c) :
    (c.socks n).arrived <+: X ++ coming sched n t (a + 1 - t) ∨ X ++ coming sched n t (a + 1 - t) <+: (c.socks n).arrived := by
  rcases Nat.lt_or_ge a c.clock with hlt | hge
  · exact .inr (h.beyond hlt)
  · left
    have := h.late
    rw [h.upto (by omega), show a + 1 - t = (c.clock - t) + (a + 1 - c.clock) by omega, coming_add, ← List.append_assoc]
    exact List.prefix_append _ _

end W5500.Spec
