import Verif.Proofs.ChipPkt
/-! # UDP send on the chip -/

namespace W5500.Spec
open W5500 socketn Sock
variable {E ε α : Type} {sched : Nat → List (Nat × Act)} {faults : Nat → Option (E × Nat)}

/-- State between two calls. -/
structure PktIdle (m : Nat) (d : List U8 × List U8) (K : List Packet) (A : List U8) (s : Sock) : Prop where
  base : PktBase m d K s
  wr : s.txWr = s.txLimit
  rx : RxReady A s

theorem stable_pktIdle {m : Nat} (hm : m ≠ 1) (d : List U8 × List U8) (K : List Packet) (A : List U8) :
    StableS (PktIdle m d K A) :=
  fun s a h => ⟨stable_pktBase hm d K s a h.base, by rw [act_txWr, act_txLimit]; exact h.wr, stable_rxReady A s a h.rx⟩

theorem PktIdle.ir {m : Nat} {d : List U8 × List U8} {K : List Packet} {A : List U8} {s : Sock} (h : PktIdle m d K A s)
    (i : U8) : PktIdle m d K A { s with ir := i } := ⟨h.base.ir i, h.wr, h.rx.ir i⟩

theorem PktIdle.fsr {m : Nat} {d : List U8 × List U8} {K : List Packet} {A : List U8} {s : Sock} (h : PktIdle m d K A s) :
    s.fsr.toNat = s.txSize := by
  rw [fsr_eq h.base.txBase h.wr, h.base.used, Nat.sub_zero]

/-- A size predicate is stable. -/
theorem stable_txSize (z : Nat) : StableS (fun s => s.txSize = z) := fun s a h => (act_txSize s a).trans h

theorem frame_and_size {G : Sock → Prop} (hG : TxFrame G) (z : Nat) : TxFrame (fun s => G s ∧ s.txSize = z) where
  stable := hG.stable.and (stable_txSize z)
  base _ h := hG.base _ h.1
  pokeTx s a x h hf := ⟨hG.pokeTx s a x h.1 hf, h.2⟩
  pokeWr s a x ha h := by
    refine ⟨hG.pokeWr s a x ha h.1, ?_⟩
    rw [pokeWr_eq s x ha]
    rcases ha with rfl | rfl <;> exact h.2

/-- Reading the free size of an idle packet socket. -/
theorem hs_freeIdle {n : Nat} (hn : n < 8) {m : Nat} (hm : m ≠ 1) (d : List U8 × List U8) (K : List Packet)
    (A : List U8) (z : Nat) :
    Hoare (At n fun s => PktIdle m d K A s ∧ s.txSize = z)
      ((Chip.dev sched faults).bus.read2 (sockOf n).register 0x20)
      (fun v c => At n (fun s => PktIdle m d K A s ∧ s.txSize = z) c ∧ v.toNat = z)
      (At n fun s => PktIdle m d K A s ∧ s.txSize = z) := by
  refine (hs_readFree hn ((stable_pktIdle hm d K A).and (stable_txSize z))
    (fun s h => ⟨h.1.base.txBase, h.1.wr⟩)).post ?_
  rintro v c ⟨h1, _, s1, s2, p1, p2, _, _, h2, _⟩
  refine ⟨h1, ?_⟩
  rw [h2, p1.1.fsr, p2.1.fsr, p1.2, p2.2]
  omega

/-- A status check. -/
theorem hs_checkStatus {n : Nat} (hn : n < 8) {P : Sock → Prop} (hP : StableS P) (u : UdpSocket)
    (hu : u.socket = sockOf n) :
    Hoare (At n P) (u.checkStatus (Chip.dev sched faults).bus) (fun _ => At n P) (At n P) := by
  unfold UdpSocket.checkStatus Socket.getStatus
  rw [hu]
  refine .bind (.mapErr (hs_read1' hn hP _)) fun x => ?_
  split
  · exact .pure fun _ h => h
  · exact .throw fun _ h => h
  · exact .throw fun _ h => h

/-- If the two pointers read were equal, the packet has left. -/
theorem sent_left {n : Nat} {d : List U8 × List U8} {K : List Packet} {A : List U8} {p : U16} {data : List U8} {z : Nat}
    {v w : U16} {c : Chip}
    (hdone : StableS (fun s => (PktSent 2 d K p data s ∧ RxReady A s) ∧ s.txSize = z ∧ s.txRd = s.txLimit)) (heq : v = w)
    (hc : At n (fun s => ((PktSent 2 d K p data s ∧ RxReady A s) ∧ s.txSize = z) ∧
      ∃ s1 s2, ((PktSent 2 d K p data s1 ∧ RxReady A s1) ∧ s1.txSize = z) ∧
        ((PktSent 2 d K p data s2 ∧ RxReady A s2) ∧ s2.txSize = z) ∧ s1.Evolves s2 ∧ s2.Evolves s ∧
        v = s1.peekReg 0x22 ++ s2.peekReg (0x22 + 1)) c ∧ w = (c.socks n).txWr) :
    At n (fun s => (PktSent 2 d K p data s ∧ RxReady A s) ∧ s.txSize = z ∧ s.txRd = s.txLimit) c := by
  obtain ⟨⟨h1, s1, s2, p1, p2, e1, e2, h2⟩, h3⟩ := hc
  refine ⟨h1.1, h1.2, ?_⟩
  -- the packet was still waiting when the second byte was read?
  rcases p2.1.1.out with ⟨o2, _⟩ | ⟨o2, _⟩
  · exact (hdone.evolves e2 ⟨p2.1, p2.2, o2⟩).2.2
  · exfalso
    rcases p1.1.1.out with ⟨o1, _⟩ | ⟨o1, _⟩
    · have := (hdone.evolves e1 ⟨p1.1, p1.2, o1⟩).2.2
      exact advanced_ne p2.1.1.len (o2.symm.trans (this.trans p2.1.1.lim))
    · have hv : v = p := by
        rw [h2]
        show ((s1.txRd.extractLsb' 8 8 : U8) ++ (s2.txRd.extractLsb' 0 8 : U8) : U16) = p
        rw [o1, o2]
        exact whole p
      have hw : w = p + BitVec.ofNat 16 data.length := by
        rw [h3]
        exact h1.1.1.wr.trans h1.1.1.lim
      exact advanced_ne h1.1.1.len (hv.symm.trans (heq.trans hw))

/-- `try_flush_tx` returns `Ok` only if the packet has left. -/
theorem udp_tryFlush {n : Nat} (hn : n < 8) (d : List U8 × List U8) (K : List Packet) (A : List U8) (p : U16)
    (data : List U8) (z : Nat) (u : UdpSocket) (hu : u.socket = sockOf n) :
    Hoare (At n fun s => (PktSent 2 d K p data s ∧ RxReady A s) ∧ s.txSize = z)
      (u.tryFlushTx (Chip.dev sched faults).bus)
      (fun _ => At n fun s => (PktSent 2 d K p data s ∧ RxReady A s) ∧ s.txSize = z ∧ s.txRd = s.txLimit)
      (At n fun s => (PktSent 2 d K p data s ∧ RxReady A s) ∧ s.txSize = z) := by
  have hP : StableS (fun s => (PktSent 2 d K p data s ∧ RxReady A s) ∧ s.txSize = z) :=
    ((stable_pktSent (.inl rfl) d K p data).and (stable_rxReady A)).and (stable_txSize z)
  have hdone : StableS (fun s => (PktSent 2 d K p data s ∧ RxReady A s) ∧ s.txSize = z ∧ s.txRd = s.txLimit) := by
    rintro s a ⟨h1, h2, h3⟩
    refine ⟨(hP s a ⟨h1, h2⟩).1, (hP s a ⟨h1, h2⟩).2, ?_⟩
    rw [act_txLimit, (act_idle (by rw [h1.1.mode]; omega) h3 a).1]
    exact h3
  unfold UdpSocket.tryFlushTx Socket.hasInterrupt
  rw [hu]
  refine .bind (.mapErr (hs_read2 hn hP _)) fun v => ?_
  have hP2 : StableS (fun s => ((PktSent 2 d K p data s ∧ RxReady A s) ∧ s.txSize = z) ∧
      ∃ s1 s2, ((PktSent 2 d K p data s1 ∧ RxReady A s1) ∧ s1.txSize = z) ∧
        ((PktSent 2 d K p data s2 ∧ RxReady A s2) ∧ s2.txSize = z) ∧ s1.Evolves s2 ∧ s2.Evolves s ∧
        v = s1.peekReg 0x22 ++ s2.peekReg (0x22 + 1)) := by
    rintro s a ⟨h1, s1, s2, p1, p2, e1, e2, h2⟩
    exact ⟨hP s a h1, s1, s2, p1, p2, e1, e2.trans (.act s a), h2⟩
  refine .bind (.mapErr (.exc (hs_readMem hn hP2 _ (.inl rfl)) fun c h => h.1)) fun w => ?_
  refine .ite (fun heq => ?_) fun _ => .throw fun c h => h.1.1
  refine Hoare.pre (P := At n fun s => (PktSent 2 d K p data s ∧ RxReady A s) ∧ s.txSize = z ∧ s.txRd = s.txLimit) ?_
    fun c hc => ?_
  · refine .bind (Q := fun _ => At n _) (.mapErr (.bind (.exc (hs_read1' hn hdone _) fun c h => ⟨h.1, h.2.1⟩)
      fun x => .pure fun _ h => h)) fun b => ?_
    refine .ite (fun _ => ?_) fun _ => ?_
    · exact .mapErr (.exc (hs_clearIr hn hdone _ fun s i h => ⟨⟨h.1.1.ir i, h.1.2.ir i⟩, h.2⟩) fun c h => ⟨h.1, h.2.1⟩)
    · refine .bind (Q := fun _ => At n _) (.mapErr (.bind (.exc (hs_read1' hn hdone _) fun c h => ⟨h.1, h.2.1⟩)
        fun x => .pure fun _ h => h)) fun b => ?_
      refine .ite (fun _ => ?_) fun _ => .pure fun _ h => h
      refine .bind (.mapErr (.exc (hs_clearIr hn hdone _ fun s i h => ⟨⟨h.1.1.ir i, h.1.2.ir i⟩, h.2⟩)
        fun c h => ⟨h.1, h.2.1⟩)) fun _ => .throw fun c h => ⟨h.1, h.2.1⟩
  · exact sent_left hdone heq hc

theorem udp_flushLoop {n : Nat} (hn : n < 8) (d : List U8 × List U8) (K : List Packet) (A : List U8) (p : U16)
    (data : List U8) (z : Nat) (u : UdpSocket) (hu : u.socket = sockOf n) (fuel : Nat) :
    Hoare (At n fun s => (PktSent 2 d K p data s ∧ RxReady A s) ∧ s.txSize = z)
      (u.flushLoop (Chip.dev sched faults).bus fuel)
      (fun _ => At n fun s => (PktSent 2 d K p data s ∧ RxReady A s) ∧ s.txSize = z ∧ s.txRd = s.txLimit)
      (At n fun s => (PktSent 2 d K p data s ∧ RxReady A s) ∧ s.txSize = z) := by
  induction fuel with
  | zero => exact .outOfFuel fun _ h => h
  | succ k ih =>
    constructor
    intro c hc
    have h := (udp_tryFlush (sched := sched) (faults := faults) hn d K A p data z u hu).run c hc
    unfold UdpSocket.flushLoop
    generalize u.tryFlushTx (Chip.dev sched faults).bus c = r at h
    obtain ⟨r, c'⟩ := r
    cases r with
    | ok a => exact h
    | err e =>
      cases e with
      | wouldBlock => exact ih.run c' h
      | other e => exact h
    | panic => exact h
    | fuel => exact h

/-- `socket_send` of one non-empty piece. -/
theorem udp_sendPiece {n : Nat} (hn : n < 8) (d : List U8 × List U8) (K : List Packet) (A : List U8) (z : Nat)
    (u : UdpSocket) (hu : u.socket = sockOf n) (fuel : Nat) (data : List U8) (hd : data ≠ []) (hl : data.length ≤ z) :
    Hoare (At n fun s => PktIdle 2 d K A s ∧ s.txSize = z)
      (u.socketSend (Chip.dev sched faults).bus fuel data)
      (fun k => At n fun s => k = data.length ∧ (∃ b, PktIdle 2 d (K ++ [⟨d.1, d.2, data, b⟩]) A s) ∧ s.txSize = z)
      (At n fun s => ∀ ds, Ended 2 d K (data :: ds) A s) := by
  have hP : StableS (fun s => PktIdle 2 d K A s ∧ s.txSize = z) :=
    (stable_pktIdle (by omega) d K A).and (stable_txSize z)
  have hexc : ∀ c, At n (fun s => PktIdle 2 d K A s ∧ s.txSize = z) c →
      At n (fun s => ∀ ds, Ended 2 d K (data :: ds) A s) c := fun c h ds => .base h.1.base h.1.rx
  unfold UdpSocket.socketSend Socket.getTxFreeSize
  refine .bind (.exc (hs_checkStatus hn hP u hu) hexc) fun _ => ?_
  refine .ite (fun _ => .throw hexc) fun _ => ?_
  rw [hu]
  refine .bind (.mapErr (.exc (hs_freeIdle hn (by omega) d K A z) hexc)) fun v => Hoare.fact' fun hv => ?_
  refine .ite (fun _ => .throw hexc) fun _ => ?_
  dsimp only
  have hG := frame_and_rx (frame_and_size (frame_pktBase (m := 2) (by omega) d K) z) A
  -- the piece is written completely
  suffices H : Hoare (At n fun s => PktIdle 2 d K A s ∧ s.txSize = z) (do
      let writePointer ← M.mapErr (NbError.ofBus (E := E)) (Socket.getTxWritePointer (Chip.dev sched faults).bus (sockOf n))
      M.mapErr NbError.ofBus ((Chip.dev sched faults).bus.write (sockOf n).txBuffer writePointer data)
      M.mapErr NbError.ofBus (Socket.setTxWritePointer (Chip.dev sched faults).bus (sockOf n)
            (writePointer + BitVec.ofNat 16 data.length))
      u.blockSendCommand (Chip.dev sched faults).bus fuel
      pure data.length) _ _ by
    split
    · exact H
    · have : data.take v.toNat = data := List.take_of_length_le (by omega)
      unfold M.sliceTo
      rw [if_pos (by omega), this]
      exact H
  refine .bind (Q := fun p => At n fun s => ((PktBase 2 d K s ∧ s.txSize = z) ∧ RxReady A s) ∧ s.txWr = p ∧
    s.txLimit = p ∧ s.used + data.length ≤ s.txSize)
    (.mapErr ((hs_readMem hn hP _ (.inl rfl)).conseq (fun _ h => h) ?_ hexc)) fun p => ?_
  · rintro p c ⟨⟨h1, h2⟩, h3⟩
    refine ⟨⟨⟨h1.base, h2⟩, h1.rx⟩, h3.symm, h1.wr.symm.trans h3.symm, ?_⟩
    have e1 : Sock.used (c.socks n) = 0 := h1.base.used
    have e2 : Sock.txSize (c.socks n) = z := h2
    omega
  refine .bind (.mapErr ((hs_payload hn hG p data).exc fun c h ds => .base h.1.1.1 h.1.2)) fun _ => ?_
  refine .bind (.mapErr ((hs_advance hn hG p data).exc fun c h ds => .base h.1.1.1 h.1.2)) fun _ => ?_
  have hstG : StableS (fun s => ((PktBase 2 d K s ∧ s.txSize = z) ∧ RxReady A s) ∧
      s.txWr = p + BitVec.ofNat 16 data.length ∧ s.txLimit = p ∧
      s.used + data.length ≤ s.txSize ∧ ring s.txMem s.txSize p data.length = data) := by
    rintro s a ⟨h1, h2, h3, h4, h5⟩
    have := (act_txBase h1.1.1.txBase a).2
    exact ⟨hG.stable s a h1, by rw [act_txWr]; exact h2, by rw [act_txLimit]; exact h3,
      by rw [act_txSize]; omega, by rw [act_txMem, act_txSize]; exact h5⟩
  have hexc2 : ∀ c, At n (fun s => (PktSent 2 d K p data s ∧ RxReady A s) ∧ s.txSize = z) c →
      At n (fun s => ∀ ds, Ended 2 d K (data :: ds) A s) c := fun c h ds => .sent h.1.1 h.1.2
  unfold UdpSocket.blockSendCommand Socket.command
  rw [hu]
  refine .bind (.bind (.mapErr ((hs_write1 (Q := fun s => (PktSent 2 d K p data s ∧ RxReady A s) ∧ s.txSize = z)
    hn hstG _ _ (fun s hs => ?_)).exc fun c h => ?_)) fun _ =>
    .exc (udp_flushLoop hn d K A p data z u hu fuel) hexc2) fun _ => .pure fun c hc => ?_
  · obtain ⟨⟨⟨h1, h2⟩, h3⟩, h4, h5, h6, h7⟩ := hs
    exact ⟨⟨send_pkt h1 hd h4 h5 h6 h7, h3.send⟩, h2⟩
  · rcases h with h | h
    · exact fun ds => .base h.1.1.1 h.1.2
    · exact hexc2 c h
  · obtain ⟨⟨h1, h2⟩, h3, h4⟩ := hc
    obtain ⟨b, hb⟩ := h1.done h4
    exact ⟨rfl, ⟨b, hb, h1.wr, h2⟩, h3⟩

/-- The loop of `socket_send_all`. -/
theorem udp_sendLoop {n : Nat} (hn : n < 8) (d : List U8 × List U8) (A : List U8) (z : Nat) (hz : z ≠ 0)
    (u : UdpSocket) (hu : u.socket = sockOf n) (fuel : Nat) (buf : List U8) (k : Nat) (v : U16) (hv : v.toNat = z) :
    ∀ (K : List Packet) (t : Nat), t ≤ buf.length →
    Hoare (At n fun s => PktIdle 2 d K A s ∧ s.txSize = z)
      (u.sendAllLoop (Chip.dev sched faults).bus fuel buf k v t)
      (fun _ => At n fun s => ∃ ps, Carry d (pieces z (buf.drop t)) ps ∧ PktIdle 2 d (K ++ ps) A s ∧ s.txSize = z)
      (At n fun s => Ended 2 d K (pieces z (buf.drop t)) A s) := by
  induction k generalizing v with
  | zero => exact fun K t _ => .outOfFuel fun c h => .base h.1.base h.1.rx
  | succ k ih =>
    intro K t ht
    unfold UdpSocket.sendAllLoop
    refine .ite (fun he => .pure fun c h => ?_) fun hne => ?_
    · refine ⟨[], ?_, by rw [List.append_nil]; exact h.1, h.2⟩
      rw [he, List.drop_length, pieces_nil]
      exact .nil d
    have hrem : buf.drop t ≠ [] := by
      intro e
      have := congrArg List.length e
      rw [List.length_drop] at this
      simp only [List.length_nil] at this
      omega
    have hpc := pieces_cons hz hrem
    have htk : (buf.drop t).take (min v.toNat (buf.drop t).length) = (buf.drop t).take z := by
      rw [hv]
      by_cases h : z ≤ (buf.drop t).length
      · rw [Nat.min_eq_left h]
      · rw [Nat.min_eq_right (by omega), List.take_length, List.take_of_length_le (by omega)]
    unfold M.sliceFrom M.sliceTo
    rw [if_pos ht]
    refine .bind (Q := fun r c => At n (fun s => PktIdle 2 d K A s ∧ s.txSize = z) c ∧ r = buf.drop t)
      (.pure fun _ h => ⟨h, rfl⟩) fun r => Hoare.fact' fun hr => ?_
    subst hr
    dsimp only
    rw [if_pos (Nat.min_le_right _ _), htk]
    refine .bind (Q := fun r c => At n (fun s => PktIdle 2 d K A s ∧ s.txSize = z) c ∧ r = (buf.drop t).take z)
      (.pure fun _ h => ⟨h, rfl⟩) fun r => Hoare.fact' fun hr => ?_
    subst hr
    have hpl : ((buf.drop t).take z).length = min z (buf.drop t).length := List.length_take
    have hpos := List.length_pos_iff.mpr hrem
    refine .bind (.exc (udp_sendPiece hn d K A z u hu fuel ((buf.drop t).take z) ?_ (by omega)) fun c h => ?_) fun sent => ?_
    · exact List.length_pos_iff.mp (by omega)
    · rw [hpc]
      exact h _
    refine Hoare.fact fun hs => ?_
    subst hs
    -- the delivery flag of the packet
    suffices H : ∀ b, Hoare (At n fun s => PktIdle 2 d (K ++ [⟨d.1, d.2, (buf.drop t).take z, b⟩]) A s ∧ s.txSize = z) _ _ _ by
      constructor
      rintro c ⟨⟨b, hb⟩, h2⟩
      exact (H b).run c ⟨hb, h2⟩
    intro b
    have hdr : buf.drop (t + ((buf.drop t).take z).length) = (buf.drop t).drop z := by
      rw [hpl, List.drop_drop]
      by_cases h : z ≤ (buf.drop t).length
      · rw [Nat.min_eq_left h]
      · rw [List.length_drop] at h
        rw [List.drop_of_length_le (by rw [List.length_drop]; omega), List.drop_of_length_le (by omega)]
    have hend : ∀ c, At n (Ended 2 d (K ++ [⟨d.1, d.2, (buf.drop t).take z, b⟩]) (pieces z ((buf.drop t).drop z)) A) c →
        At n (Ended 2 d K (pieces z (buf.drop t)) A) c := by
      rintro c ⟨ds', ps, h1, h2, h3, h4⟩
      refine ⟨(buf.drop t).take z :: ds', ⟨d.1, d.2, (buf.drop t).take z, b⟩ :: ps, ?_, h2.cons _ _, ?_, ?_⟩
      · rw [hpc]
        exact List.prefix_cons_inj _ |>.mpr h1
      · rw [h3, List.append_assoc]; rfl
      · rw [List.append_assoc] at h4
        exact h4
    unfold Socket.getTxFreeSize
    rw [hu]
    refine .bind (.mapErr (.exc (hs_freeIdle hn (by omega) d _ A z) fun c h => hend c (.base h.1.base h.1.rx)))
      fun v' => Hoare.fact' fun hv' => ?_
    have := ih v' hv' (K ++ [⟨d.1, d.2, (buf.drop t).take z, b⟩]) (t + ((buf.drop t).take z).length) (by
      rw [hpl, List.length_drop]; omega)
    rw [hdr] at this
    refine this.conseq (fun _ h => h) (fun _ c h => ?_) hend
    obtain ⟨ps, h1, h2, h3⟩ := h
    refine ⟨⟨d.1, d.2, (buf.drop t).take z, b⟩ :: ps, ?_, ?_, h3⟩
    · rw [hpc]
      exact h1.cons _ _
    · rw [List.append_assoc] at h2
      exact h2

/-- `socket_send_all`. -/
theorem udp_sendAll {n : Nat} (hn : n < 8) (d : List U8 × List U8) (K : List Packet) (A : List U8) (z : Nat)
    (u : UdpSocket) (hu : u.socket = sockOf n) (fuel : Nat) (buf : List U8) :
    Hoare (At n fun s => PktIdle 2 d K A s ∧ s.txSize = z)
      (u.socketSendAll (Chip.dev sched faults).bus fuel buf)
      (fun _ => At n fun s => ∃ ps, Carry d (pieces z buf) ps ∧ PktIdle 2 d (K ++ ps) A s ∧ s.txSize = z)
      (At n fun s => Ended 2 d K (pieces z buf) A s) := by
  have hP : StableS (fun s => PktIdle 2 d K A s ∧ s.txSize = z) :=
    (stable_pktIdle (by omega) d K A).and (stable_txSize z)
  have hexc : ∀ c, At n (fun s => PktIdle 2 d K A s ∧ s.txSize = z) c →
      At n (fun s => Ended 2 d K (pieces z buf) A s) c := fun c h => .base h.1.base h.1.rx
  unfold UdpSocket.socketSendAll Socket.getTxFreeSize
  refine .bind (.exc (hs_checkStatus hn hP u hu) hexc) fun _ => ?_
  refine .ite (fun _ => .throw hexc) fun _ => ?_
  rw [hu]
  refine .bind (.mapErr (.exc (hs_freeIdle hn (by omega) d K A z) hexc)) fun v => Hoare.fact' fun hv => ?_
  refine .ite (fun _ => .throw hexc) fun hne => ?_
  refine udp_sendLoop hn d A z ?_ u hu fuel buf fuel v hv K 0 (Nat.zero_le _)
  rintro rfl
  exact hne (BitVec.eq_of_toNat_eq hv)

end W5500.Spec
