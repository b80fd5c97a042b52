import Verif.Spec.Block
import Verif.Proofs.ReadAll
import Verif.Proofs.Disclosure
import Verif.Proofs.SuccessMore
import Verif.Proofs.RawHistory
import Verif.Proofs.Irq
import Verif.Props.Udp
import Verif.Props.Raw
/-! # Receive calls that bring nothing -/

namespace W5500.Spec
open W5500 socketn Sock
variable {E ε α H : Type} {sched : Nat → List (Nat × Act)} {faults : Nat → Option (E × Nat)}

theorem Chip.Ticks.readsOnly {I : Chip → Prop} (h : Chip.Ticks sched I) {c c' : Chip}
    (hr : ReadsOnly (Chip.dev sched faults).bus c c') (hc : I c) : I c' :=
  hr.induct (fun w b a d hw => h.readFrame w b a d hw) (fun _ _ _ _ hf => hf.elim) hc

theorem StableS.stays {n : Nat} {P : Sock → Prop} (h : StableS P) : Stays sched n P := fun _ a _ s hs => h s a hs

theorem clock_ticks (t : Nat) : Chip.Ticks sched (fun c => t ≤ c.clock) :=
  ⟨fun c hc => by rw [Chip.tick_clock]; omega, fun _ _ h => h⟩

/-! ## UDP -/

section udp
variable {n : Nat}

/-- With RECV clear whatever happens meanwhile, the blocking loop does not end with `Ok`. -/
theorem udp_block_unheard (hn : n < 8) {I : Chip → Prop} (hT : Chip.Ticks sched I)
    (hI : ∀ c, I c → (c.socks n).ir.getLsbD 2 = false) (u : UdpSocket) (hu : u.socket = sockOf n) (fuel rounds : Nat)
    (buf : List U8) (d : Device Chip H) (hd : I d.bus) (x : Nat × SockAddr) (s' : List U8 × Device Chip H) :
    nbBlock (Device.udpReceive (Chip.dev sched faults).bus fuel u) rounds (buf, d) ≠ (.ok x, s') := by
  induction rounds generalizing buf d with
  | zero => nofun
  | succ r ih =>
    unfold nbBlock
    rcases hr : Device.udpReceive (Chip.dev sched faults).bus fuel u (buf, d) with ⟨r, buf', d'⟩
    have h4 := udp_call_unheard hn hT hI u hu fuel hd hr
    rcases r with y | (_ | e) | _ | _
    · exact absurd rfl (h4.1 y)
    all_goals first | exact ih buf' d' h4.2 | nofun

/-- Every action that is neither a datagram nor an interrupt keeps the RX side of a UDP socket. -/
theorem act_rx2 {s : Sock} (a : Act) (ht : s.proto = 2) (h1 : ∀ d, a ≠ .datagram d) (h2 : ∀ bits, a ≠ .raise bits) :
    (s.act a).ir = s.ir ∧ (s.act a).rsr = s.rsr ∧ (s.act a).queue = s.queue := by
  cases a with
  | arrive bs => simp [act, ht]
  | raise bits => exact absurd rfl (h2 bits)
  | datagram d => exact absurd rfl (h1 d)
  | frame f => simp [act, ht]
  | transmit k => simp only [act]; split <;> exact ⟨rfl, rfl, rfl⟩
  | ack k => simp only [act]; split <;> exact ⟨rfl, rfl, rfl⟩
  | emit b => simp only [act]; split <;> exact ⟨rfl, rfl, rfl⟩
  | status x => exact ⟨rfl, rfl, rfl⟩

/-- Bytes that are stored are announced. -/
theorem stored_announced {s : Sock} {bs : List U8} (hf : s.rsr.toNat + bs.length ≤ s.rxSize) : (s.push bs).Announced := by
  unfold Announced push
  rw [if_pos hf]
  show (s.ir ||| 4).getLsbD 2 = true
  rw [BitVec.getLsbD_or]
  exact Bool.or_true _

/-- A datagram comes to a UDP socket. -/
theorem act_datagram {s : Sock} (h : RxFits s) (ht : s.proto = 2) (dg : Dgram) :
    (dg.Wf ∧ s.rsr.toNat + dg.encode.length ≤ s.rxSize ∧ (s.act (.datagram dg)).Announced ∧
      (s.act (.datagram dg)).rsr.toNat = s.rsr.toNat + dg.encode.length) ∨
    ((dg.Wf → s.rxSize < s.rsr.toNat + dg.encode.length) ∧ s.act (.datagram dg) = s) := by
  by_cases hw : dg.Wf
  · have e : s.act (.datagram dg) = s.push dg.encode := by simp only [act]; rw [if_pos ⟨ht, hw⟩]
    rw [e]
    by_cases hf : s.rsr.toNat + dg.encode.length ≤ s.rxSize
    · exact .inl ⟨hw, hf, stored_announced hf, (push_queue h hf).2⟩
    · refine .inr ⟨fun _ => by omega, ?_⟩
      unfold push
      rw [if_neg hf]
  · refine .inr ⟨fun h => absurd h hw, ?_⟩
    simp only [act]
    rw [if_neg fun h => hw h.2]

/-- Shut, with `q` waiting. -/
def Walled (sched : Nat → List (Nat × Act)) (n t : Nat) (q : List U8) (s : Sock) : Prop :=
  s.proto = 2 ∧ RxFits s ∧ s.Shut sched n t ∧ s.queue = q

theorem walled_ticks {t : Nat} (hb : OnlyForPackets sched n) (q : List U8) :
    Chip.Ticks sched (fun c => t ≤ c.clock ∧ At n (Walled sched n t q) c) := by
  refine ⟨fun c hc => ⟨by rw [Chip.tick_clock]; exact Nat.le_succ_of_le hc.1, ?_⟩, fun _ _ h => h⟩
  refine (Chip.foldl_event (P := Walled sched n t q) (D := fun _ => True) (a := .emit true) (sched c.clock) (fun s a ha h => ?_)
    (fun _ _ _ _ _ => trivial) (fun _ _ => trivial) c hc.2).1
  obtain ⟨h1, h2, h3, h4⟩ := h
  have hkeep : (s.act a).rsr = s.rsr ∧ (s.act a).queue = s.queue ∧ (s.act a).ir.getLsbD 2 = s.ir.getLsbD 2 := by
    have other : (∀ d, a ≠ .datagram d) → (∀ bits, a ≠ .raise bits) →
        (s.act a).rsr = s.rsr ∧ (s.act a).queue = s.queue ∧ (s.act a).ir.getLsbD 2 = s.ir.getLsbD 2 := fun e1 e2 =>
      let ⟨e1, e2, e3⟩ := act_rx2 a h1 e1 e2
      ⟨e2, e3, by rw [e1]⟩
    cases a with
    | datagram dg =>
      have := h3.2 _ dg hc.1 ha
      rcases act_datagram h2 h1 dg with h | h
      · have := this h.1
        have := h.2.1
        omega
      · rw [h.2]; exact ⟨rfl, rfl, rfl⟩
    | raise bits => exact ⟨rfl, rfl, raise_bit2 (hb _ bits ha)⟩
    | _ => exact other (fun _ => nofun) (fun _ => nofun)
  refine ⟨by rw [act_proto]; exact h1, (act_rxFits h2 a).1, ⟨?_, ?_⟩, by rw [hkeep.2.1]; exact h4⟩
  · unfold Announced
    rw [hkeep.2.2]
    exact h3.1
  · intro k dg hk hd hw
    rw [act_rxSize, hkeep.1]
    exact h3.2 k dg hk hd hw

/-- Nothing waits, and nothing that comes from time `t` on fits into the RX buffer. -/
def Barren (sched : Nat → List (Nat × Act)) (n t : Nat) (s : Sock) : Prop :=
  s.proto = 2 ∧ RxFits s ∧ (∀ k dg, t ≤ k → (n, .datagram dg) ∈ sched k → dg.Wf → s.rxSize < dg.encode.length) ∧ s.rsr.toNat = 0

theorem barren_ticks {t : Nat} : Chip.Ticks sched (fun c => t ≤ c.clock ∧ At n (Barren sched n t) c) := by
  refine ⟨fun c hc => ⟨by rw [Chip.tick_clock]; exact Nat.le_succ_of_le hc.1, ?_⟩, fun _ _ h => h⟩
  refine (Chip.foldl_event (P := Barren sched n t) (D := fun _ => True) (a := .emit true) (sched c.clock) (fun s a ha h => ?_)
    (fun _ _ _ _ _ => trivial) (fun _ _ => trivial) c hc.2).1
  obtain ⟨h1, h2, h3, h4⟩ := h
  refine ⟨by rw [act_proto]; exact h1, (act_rxFits h2 a).1, fun k dg hk hd hw => by rw [act_rxSize]; exact h3 k dg hk hd hw, ?_⟩
  cases a with
  | datagram dg =>
    rcases act_datagram h2 h1 dg with h | h
    · have := h3 _ dg hc.1 ha h.1
      have := h.2.1
      omega
    · rw [h.2]; exact h4
  | raise bits => exact h4
  | _ =>
    refine (congrArg BitVec.toNat (act_rx2 _ h1 ?_ ?_).2.1).trans h4 <;> nofun

/-- Something is announced, and waits. -/
def Ripe (s : Sock) : Prop := s.Announced ∧ 1 ≤ s.rsr.toNat

/-- ... or there is room for `m` bytes. -/
structure Waits (m : Nat) (s : Sock) : Prop where
  udp : s.proto = 2
  fits : RxFits s
  room : Ripe s ∨ s.rsr.toNat + m ≤ s.rxSize

theorem ripe_act {s : Sock} (hf : RxFits s) (h : Ripe s) (a : Act) : Ripe (s.act a) :=
  ⟨announced_act a h.1, Nat.le_trans h.2 (act_rxFits hf a).2⟩

theorem stable_waits (m : Nat) : StableS (Waits m) := by
  intro s a h
  refine ⟨by rw [act_proto]; exact h.udp, (act_rxFits h.fits a).1, ?_⟩
  rcases h.room with hr | hr
  · exact .inl (ripe_act h.fits hr a)
  have other : (∀ d, a ≠ .datagram d) → (∀ bits, a ≠ .raise bits) → Ripe (s.act a) ∨ (s.act a).rsr.toNat + m ≤ (s.act a).rxSize :=
    fun e1 e2 => .inr (by rw [(act_rx2 a h.udp e1 e2).2.1, act_rxSize]; exact hr)
  cases a with
  | datagram dg =>
    rcases act_datagram h.fits h.udp dg with h1 | h1
    · refine .inl ⟨h1.2.2.1, ?_⟩
      rw [h1.2.2.2, encode_length h1.1]
      omega
    · rw [h1.2]; exact .inr hr
  | raise bits => exact .inr hr
  | _ => exact other (fun _ => nofun) (fun _ => nofun)

/-- After a datagram of at most `m` bytes has come, something is announced. -/
theorem waits_ticks {m k : Nat} {dg : Dgram} (hw : dg.Wf) (hm : dg.encode.length ≤ m) (ha : (n, .datagram dg) ∈ sched k) :
    Chip.Ticks sched (fun c => Waits m (c.socks n) ∧ (k < c.clock → Ripe (c.socks n))) := by
  refine Chip.ticks_event (stable_waits m) (fun s a h hr => ripe_act h.fits hr a) ha fun s h => ?_
  rcases h.room with hr | hr
  · exact ripe_act h.fits hr _
  rcases act_datagram h.fits h.udp dg with h1 | h1
  · refine ⟨h1.2.2.1, ?_⟩
    rw [h1.2.2.2, encode_length h1.1]
    omega
  · have := h1.1 hw
    omega

/-- A UDP receive that returned `WouldBlock` has only read, and there was nothing announced. -/
theorem would_block_reads (hn : n < 8) {I : Chip → Prop} (hT : Chip.Ticks sched I) {u : UdpSocket} (hu : u.socket = sockOf n)
    {fuel : Nat} {buf buf' : List U8} {d d' : Device Chip H} (hd : I d.bus)
    (h : Device.udpReceive (Chip.dev sched faults).bus fuel u (buf, d) = (.err .wouldBlock, (buf', d'))) :
    buf' = buf ∧ I d'.bus ∧ d.bus.clock + 2 ≤ d'.bus.clock ∧ (RxFits (d.bus.socks n) → ¬ Ripe (d.bus.socks n)) := by
  obtain ⟨w1, x, w2, w3, h1, h2, h3, rfl, rfl⟩ := (Props.wouldBlock_iff _ _ _ _ _ _ _).mp h
  rw [hu] at h1 h2 h3
  have r1 : (Chip.dev sched faults).bus.read1 (sockOf n).register 0x03 d.bus = (.ok 0x22, w1) := Bus.read1_eq_ok.mpr h1
  have r2 : (Chip.dev sched faults).bus.read1 (sockOf n).register 0x02 w1 = (.ok x, w2) := Bus.read1_eq_ok.mpr h2
  have k1 := (Chip.read1_clock (sched := sched) (faults := faults) _ _ d.bus.clock).ok (s := d.bus) rfl r1
  have k2 := (Chip.read1_clock (sched := sched) (faults := faults) _ _ w1.clock).ok (s := w1) rfl r2
  have along : ∀ J : Chip → Prop, Chip.Ticks sched J → J d.bus → J w2 := fun J hJ h =>
    (hJ.read1 (faults := faults) _ _).ok ((hJ.read1 (faults := faults) _ _).ok h r1) r2
  have e : x = (w2.socks n).ir := (Chip.read1_value (sched := sched) (faults := faults) hn 0x02).ok (s := w1) trivial r2
  have hst : StableS (fun s => RxFits s ∧ Ripe s) := fun s a h => ⟨(act_rxFits h.1 a).1, ripe_act h.1 h.2 a⟩
  have key : ∀ x : U8, x &&& 4 = 0 → x.getLsbD 2 = false := by decide +kernel
  rcases h3 with ⟨hx, rfl⟩ | ⟨hx, h3⟩
  · refine ⟨rfl, along I hT hd, by show _ ≤ w3.clock; omega, fun hf hr => ?_⟩
    have := (along _ (hst.stays.ticks (n := n)) ⟨hf, hr⟩).2.1
    unfold Announced at this
    rw [← e, key x hx] at this
    exact nomatch this
  · refine ⟨rfl, (ticks_receiveSize hT fuel).ok (along I hT hd) h3, ?_, fun hf hr => ?_⟩
    · have := (ticks_receiveSize (faults := faults) (clock_ticks (sched := sched) w2.clock) fuel).ok (s := w2) (Nat.le_refl _) h3
      show _ ≤ w3.clock
      omega
    · have h5 := along _ (hst.stays.ticks (n := n)) ⟨hf, hr⟩
      obtain ⟨_, s0, h6, _, e0⟩ := (hs_receiveSize (sched := sched) (faults := faults) hn hst (fun _ h => h.1) fuel).ok (s := w2) h5 h3
      have := h6.2.2
      rw [← e0] at this
      exact absurd this (by decide)

/-- Then the blocking loop does not end with `Ok`, whatever is announced. -/
theorem udp_block_barren (hn : n < 8) {t : Nat} (u : UdpSocket) (hu : u.socket = sockOf n) (fuel rounds : Nat) (buf : List U8)
    (d : Device Chip H) (ht : t ≤ d.bus.clock) (hd : At n (Barren sched n t) d.bus) {K : List Packet} {A : List U8} {z : Nat}
    (hi : At n (UdpIdle K A z []) d.bus) (x : Nat × SockAddr) (s' : List U8 × Device Chip H) :
    nbBlock (Device.udpReceive (Chip.dev sched faults).bus fuel u) rounds (buf, d) ≠ (.ok x, s') := by
  induction rounds generalizing buf d with
  | zero => nofun
  | succ r ih =>
    unfold nbBlock
    have hT : Chip.Ticks sched (fun c => (t ≤ c.clock ∧ At n (Barren sched n t) c) ∧ At n (UdpIdle K A z []) c) :=
      have h1 := barren_ticks (sched := sched) (n := n) (t := t)
      have h2 := (stable_udpIdle K A z []).stays (sched := sched) (n := n) |>.ticks
      ⟨fun c h => ⟨h1.tick c h.1, h2.tick c h.2⟩, fun c i h => ⟨h1.txn c i h.1, h2.txn c i h.2⟩⟩
    rcases hr : Device.udpReceive (Chip.dev sched faults).bus fuel u (buf, d) with ⟨y, buf', d'⟩
    rcases y with y | (_ | e) | _ | _
    · exfalso
      rw [Props.udpReceive_run] at hr
      rcases hh : recvHead (Chip.dev sched faults).bus fuel u buf.length d.bus with ⟨v | _ | _ | _, w⟩ <;> rw [hh] at hr
      case ok =>
        have hm := (Props.moves_recvHead (Chip.dev sched faults).bus fuel buf.length u).run d.bus
        rw [hh] at hm
        have h1 := hT.readsOnly hm ⟨⟨ht, hd⟩, hi⟩
        obtain ⟨dg, rest, more, _, h2, _, _, _, _, h3⟩ := (udp_recvHead (sched := sched) (faults := faults) hn u hu K A z [] _ fuel
          buf.length).ok (s := d.bus) ⟨hi, rfl⟩ hh
        obtain ⟨more2, h4⟩ := h3.1.queue
        have h5 : (w.socks n).rsr.toNat = 0 := h1.1.2.2.2.2
        rw [← Sock.queue_length, h4.2, List.cons_append, encAll_cons, List.length_append, encode_length h2] at h5
        omega
      all_goals exact nomatch hr
    case err.wouldBlock =>
      obtain ⟨rfl, ⟨⟨h1, h2⟩, h3⟩, _⟩ := would_block_reads hn hT hu ⟨⟨ht, hd⟩, hi⟩ hr
      exact ih _ d' h1 h2 h3
    all_goals nofun

/-- While the status is SOCK_UDP, and with a buffer that is not empty, the only error of a UDP receive is `WouldBlock`. -/
theorem firm_udpCall {P : Sock → Prop} (hP : Firm sched n P) (hn : n < 8) (hf : ∀ i, faults i = none)
    (hsr : ∀ s, P s → s.sr = 0x22) (u : UdpSocket) (hu : u.socket = sockOf n) (fuel : Nat) (b0 : List U8) (hb : b0 ≠ []) :
    HoareE (fun s : List U8 × Chip => s.1 = b0 ∧ At n P s.2)
      (u.socketReceive (Chip.dev sched faults).bus fuel) (fun _ s => At n P s.2) (fun e s => e = .wouldBlock ∧ At n P s.2) := by
  have hB := faultless_chip (sched := sched) hf
  unfold UdpSocket.socketReceive
  refine .bind ((HoareE.onSnd' b0 (R := fun _ _ => False) (firm_udpStatus hP hn hf hsr u hu)).exc fun _ _ h => h.2.elim) fun _ => ?_
  rw [hu]
  unfold Socket.hasInterrupt
  refine .bind ((HoareE.onSnd' (R := fun _ _ => False) (Q := fun _ c => At n P c) b0 (.sure (T := fun _ => True) (.bind (.exc
        (hP.stays.ticks.read1 _ _) fun _ _ => trivial) fun x => .pure fun c h => h)
      (.bind (.read1 hB _ _) fun _ => .pure _))).exc fun _ _ h => h.2.elim) fun y => ?_
  refine .ite (fun _ => .throw fun _ h => ⟨rfl, h.2⟩) fun _ => ?_
  refine .bind ((HoareE.onSnd' (R := fun _ _ => False) b0 (hP.receiveSize hf fuel)).exc fun _ _ h => h.2.elim) fun v => ?_
  dsimp only
  refine .ite (fun _ => .throw fun _ h => ⟨rfl, h.2⟩) fun _ => ?_
  refine .bind (Q := fun (s t : List U8 × Chip) => s.1 = b0 ∧ At n P t.2) ⟨fun s h => h⟩ fun s => .fact fun hs => ?_
  rw [hs, if_neg (fun e => hb (List.length_eq_zero_iff.mp e))]
  unfold Socket.getRxReadPointer Socket.setRxReadPointer Socket.command Socket.resetInterrupt
  refine HoareE.exc (R := fun _ _ => False) ?_ fun _ _ h => h.elim
  refine .bind (HoareE.onSnd2 (R := fun _ _ => False) (hP.read2 hf _ _)) fun p =>
    .bind (HoareE.onSnd2 (R := fun _ _ => False) (hP.readBuf hf _ _ _)) fun hd => ?_
  split
  · exact ⟨fun _ _ => trivial⟩
  · exact .bind (hP.readPrefix hf _ _ _) fun _ =>
      .bind (HoareE.onSnd2 (R := fun _ _ => False) (hP.write2 hf hn _ _ (by decide))) fun _ =>
      .bind (HoareE.onSnd2 (R := fun _ _ => False) (hP.write1 hf hn _ _ (by decide) fun _ => .inr rfl)) fun _ =>
      .bind (HoareE.onSnd2 (R := fun _ _ => False) (hP.write1 hf hn _ _ (by decide) nofun)) fun _ => .pure fun _ h => h

end udp

/-! ## MACRAW -/

section raw
variable {n : Nat}

/-- A frame comes to a MACRAW socket. -/
theorem act_frame {s : Sock} (h : RxFits s) (ht : s.proto = 4) (f : List U8) :
    (f.length + 2 < 65536 ∧ (s.act (.frame f)).queue = s.queue ++ encodeFrame f ∧
      (s.act (.frame f)).rsr.toNat = s.rsr.toNat + (f.length + 2)) ∨
    ((f.length + 2 < 65536 → s.rxSize < s.rsr.toNat + (f.length + 2)) ∧ s.act (.frame f) = s) := by
  by_cases hw : f.length + 2 < 65536
  · have e : s.act (.frame f) = s.push (encodeFrame f) := by simp only [act]; rw [if_pos ⟨ht, hw⟩]
    rw [e]
    have hl := encodeFrame_length f
    by_cases hf : s.rsr.toNat + (encodeFrame f).length ≤ s.rxSize
    · have := push_queue h hf
      exact .inl ⟨hw, this.1, by rw [this.2, hl]⟩
    · refine .inr ⟨fun _ => by omega, ?_⟩
      unfold push
      rw [if_neg hf]
  · refine .inr ⟨fun h => absurd h hw, ?_⟩
    simp only [act]
    rw [if_neg fun h => hw h.2]

/-- Every other action keeps the queue. -/
theorem act_rx4 {s : Sock} (a : Act) (ht : s.proto = 4) (h1 : ∀ f, a ≠ .frame f) : (s.act a).queue = s.queue := by
  cases a with
  | frame f => exact absurd rfl (h1 f)
  | arrive bs => simp [act, ht]
  | datagram d => simp [act, ht]
  | transmit k => simp only [act]; split <;> rfl
  | ack k => simp only [act]; split <;> rfl
  | emit b => simp only [act]; split <;> rfl
  | raise b => rfl
  | status x => rfl

/-- Only frames that are not empty are queued. -/
structure Solid (s : Sock) : Prop where
  raw : s.proto = 4
  fits : RxFits s
  frames : ∃ fs, Frames fs s ∧ [] ∉ fs

theorem solid_stays (hne : ∀ k, (n, .frame []) ∉ sched k) : Stays sched n Solid := by
  rintro k a ha s ⟨h1, h2, fs, h3, h4⟩
  refine ⟨by rw [act_proto]; exact h1, (act_rxFits h2 a).1, ?_⟩
  have same : (s.act a).queue = s.queue → ∃ fs, Frames fs (s.act a) ∧ [] ∉ fs := fun e => ⟨fs, ⟨h3.1, e.trans h3.2⟩, h4⟩
  by_cases hf : ∃ f, a = .frame f
  · obtain ⟨f, rfl⟩ := hf
    rcases act_frame h2 h1 f with ⟨e1, e2, _⟩ | ⟨_, e⟩
    · refine ⟨fs ++ [f], ⟨fun x hx => ?_, ?_⟩, fun hm => ?_⟩
      · rcases List.mem_append.mp hx with hx | hx
        · exact h3.1 x hx
        · rw [List.mem_singleton.mp hx]; exact e1
      · rw [e2, h3.2, encFrames_append, show encFrames [f] = encodeFrame f from by simp [encFrames]]
      · rcases List.mem_append.mp hm with hm | hm
        · exact h4 hm
        · rw [← List.mem_singleton.mp hm] at ha
          exact hne k ha
    · exact same (by rw [e])
  · exact same (act_rx4 a h1 fun f e => hf ⟨f, e⟩)

/-- After a frame of at most `m` bytes with its length has come, something waits. -/
theorem frame_ticks {m k : Nat} {f : List U8} (hw : f.length + 2 < 65536) (hm : f.length + 2 ≤ m) (ha : (n, .frame f) ∈ sched k) :
    Chip.Ticks sched (fun c => (c.socks n).proto = 4 ∧ RxFits (c.socks n) ∧ m ≤ (c.socks n).rxSize ∧
      (k < c.clock → 1 ≤ (c.socks n).rsr.toNat)) := by
  have hP : StableS fun s => s.proto = 4 ∧ RxFits s ∧ m ≤ s.rxSize := fun s a h =>
    ⟨by rw [act_proto]; exact h.1, (act_rxFits h.2.1 a).1, by rw [act_rxSize]; exact h.2.2⟩
  have hT := Chip.ticks_event (n := n) (sched := sched) (D := fun s => 1 ≤ s.rsr.toNat) hP
    (fun s a h hr => Nat.le_trans hr (act_rxFits h.2.1 a).2) ha fun s h => ?_
  · exact ⟨fun c hc => by have := hT.tick c ⟨⟨hc.1, hc.2.1, hc.2.2.1⟩, hc.2.2.2⟩; exact ⟨this.1.1, this.1.2.1, this.1.2.2, this.2⟩,
      fun _ _ h => h⟩
  · rcases act_frame h.2.1 h.1 f with ⟨_, _, e⟩ | ⟨e1, e2⟩
    · rw [e]; omega
    · rw [e2]
      have := e1 hw
      have := h.2.2
      omega

theorem rawHead_clock (fuel t : Nat) (s : Socket) :
    Hoare (fun c => c.clock = t) (rawHead (Chip.dev sched faults).bus fuel s) (fun _ c => t + 2 ≤ c.clock) (fun _ => True) := by
  unfold rawHead Socket.getRxReadPointer
  have key : ∀ t', Hoare (fun c : Chip => t' ≤ c.clock) ((Chip.dev sched faults).bus.read2 s.register RX_DATA_READ_POINTER)
      (fun _ c => t' + 2 ≤ c.clock) (fun _ => True) := fun t' => ⟨fun c hc => by
    have := (Chip.read2_clock (sched := sched) (faults := faults) s.register RX_DATA_READ_POINTER c.clock).run c rfl
    revert this
    generalize (Chip.dev sched faults).bus.read2 s.register RX_DATA_READ_POINTER c = r
    obtain ⟨_ | _ | _ | _, c'⟩ := r
    · intro (h : c'.clock = _)
      show t' + 2 ≤ c'.clock
      omega
    all_goals exact fun _ => trivial⟩
  refine .bind (Q := fun _ c => t ≤ c.clock) (.conseq (ticks_receiveSize (clock_ticks t) fuel) (fun _ h => Nat.le_of_eq h.symm)
    (fun _ _ h => h) fun _ _ => trivial) fun v => .bind (key t) fun p => ?_
  refine .ite (fun _ => .pure fun _ h => h) fun _ => .bind ((clock_ticks (t + 2)).readBuf _ _ _ |>.exc fun _ _ => trivial) fun hd => ?_
  split
  · exact .pure fun _ h => h
  · exact .panic fun _ _ => trivial

/-- A `read_frame` that returned 0, with no empty frame around, has only read, and nothing was queued. -/
theorem raw_zero (hn : n < 8) (hne : ∀ k, (n, .frame []) ∉ sched k) {r : RawDevice} (hr : r.rawSocket = sockOf n) {K : List Packet}
    {A : List U8} {z fuel : Nat} {fs : List (List U8)} {b b' : List U8} (hb : b ≠ []) {c c' : Chip}
    (hi : At n (RawIdle K A z fs) c) (hs : At n Solid c)
    (h : r.readFrame (Chip.dev sched faults).bus fuel (b, c) = (.ok 0, (b', c'))) :
    fs = [] ∧ b' = b ∧ ReadsOnly (Chip.dev sched faults).bus c c' ∧ c.clock + 2 ≤ c'.clock := by
  rw [readFrame_split] at h
  obtain ⟨x, ⟨b1, c1⟩, h1, h2⟩ := M.bind_eq_ok.mp h
  obtain ⟨h1, e⟩ := M.onSnd_eq_ok.mp h1
  cases e
  rw [hr] at h1 h2
  have hm := (moves_rawHead (B := (Chip.dev sched faults).bus) (fun _ _ _ => False) fuel (sockOf n)).run c
  rw [h1] at hm
  have hh := (raw_head (sched := sched) (faults := faults) hn K A z fs (c.socks n).rxRdReg fuel).ok ⟨hi, rfl⟩ h1
  have hc := (rawHead_clock (sched := sched) (faults := faults) fuel c.clock (sockOf n)).ok (s := c) rfl h1
  cases x with
  | none =>
    cases h2
    exact ⟨hh.1, rfl, hm, hc⟩
  | some x =>
    exfalso
    obtain ⟨p, av, ex⟩ := x
    obtain ⟨f, rest, more, h3, h4, h5, h6, h7, h8⟩ := hh
    subst h6
    rw [h5] at h2
    have h9 := ((raw_tail (sched := sched) (faults := faults) hn K A z f rest h4 _ av h7 b).ok ⟨rfl, h8⟩ h2).1.len
    have hl : b.length ≠ 0 := fun e => hb (List.length_eq_zero_iff.mp e)
    have hf : f = [] := List.length_eq_zero_iff.mp (by dsimp only at h9; omega)
    obtain ⟨_, _, gs, h10, h11⟩ := (solid_stays hne).ticks.readsOnly hm hs
    obtain ⟨later, h12⟩ := h8.1.busy.queue
    have := Props.C55_unambiguous _ _ h10.1 h12.1 (h10.2.symm.trans h12.2)
    rw [this, hf] at h11
    exact h11 (by simp)

end raw
end W5500.Spec
