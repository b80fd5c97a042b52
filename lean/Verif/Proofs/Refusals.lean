import Verif.Spec.Refusals
import Verif.Proofs.OwnErr
/-! # What a call leaves behind that fails without a bus error -/

namespace W5500.Spec
open W5500 socketn Sock
variable {E ε α : Type} {sched : Nat → List (Nat × Act)} {faults : Nat → Option (E × Nat)}

/-- Not an error of the bus. -/
def Own (e : NbError (UdpSocketError E)) : Prop := ∀ x, e ≠ .other (.other x)

theorem own_bus {e : E} {T : Prop} : Own (NbError.ofBus e) → T := fun h => absurd rfl (h e)

/-- `try_flush_tx` reports a timeout only if the packet has left. -/
theorem udp_tryFlushOwn {n : Nat} (hn : n < 8) (d : List U8 × List U8) (K : List Packet) (A : List U8) (p : U16)
    (data : List U8) (z : Nat) (u : UdpSocket) (hu : u.socket = sockOf n) :
    HoareE (At n fun s => (PktSent 2 d K p data s ∧ RxReady A s) ∧ s.txSize = z)
      (u.tryFlushTx (Chip.dev sched faults).bus) (fun _ _ => True)
      (fun e c => Own e → e ≠ .wouldBlock → Drained n c) := by
  have hP : StableS (fun s => (PktSent 2 d K p data s ∧ RxReady A s) ∧ s.txSize = z) :=
    ((stable_pktSent (.inl rfl) d K p data).and (stable_rxReady A)).and (stable_txSize z)
  have hdone : StableS (fun s => (PktSent 2 d K p data s ∧ RxReady A s) ∧ s.txSize = z ∧ s.txRd = s.txLimit) := by
    rintro s a ⟨h1, h2, h3⟩
    refine ⟨(hP s a ⟨h1, h2⟩).1, (hP s a ⟨h1, h2⟩).2, ?_⟩
    rw [act_txLimit, (act_idle (by rw [h1.1.mode]; omega) h3 a).1]
    exact h3
  unfold UdpSocket.tryFlushTx Socket.hasInterrupt
  rw [hu]
  refine .bind (.mapped (hs_read2 hn hP _) fun _ _ => own_bus) fun v => ?_
  have hP2 : StableS (fun s => ((PktSent 2 d K p data s ∧ RxReady A s) ∧ s.txSize = z) ∧
      ∃ s1 s2, ((PktSent 2 d K p data s1 ∧ RxReady A s1) ∧ s1.txSize = z) ∧
        ((PktSent 2 d K p data s2 ∧ RxReady A s2) ∧ s2.txSize = z) ∧ s1.Evolves s2 ∧ s2.Evolves s ∧
        v = s1.peekReg 0x22 ++ s2.peekReg (0x22 + 1)) := by
    rintro s a ⟨h1, s1, s2, p1, p2, e1, e2, h2⟩
    exact ⟨hP s a h1, s1, s2, p1, p2, e1, e2.trans (.act s a), h2⟩
  refine .bind (.mapped (hs_readMem hn hP2 _ (.inl rfl)) fun _ _ => own_bus) fun w => ?_
  refine .ite (fun heq => ?_) fun _ => .throw fun c h _ hw => absurd rfl hw
  refine HoareE.pre (P := At n fun s => (PktSent 2 d K p data s ∧ RxReady A s) ∧ s.txSize = z ∧ s.txRd = s.txLimit) ?_
    fun c hc => sent_left hdone heq hc
  refine .bind (Q := fun _ => At n _) (.mapped (.bind (hs_read1' hn hdone _) fun x => .pure fun _ h => h)
    fun _ _ => own_bus) fun b => ?_
  refine .ite (fun _ => ?_) fun _ => ?_
  · exact .mapped (.post (hs_clearIr hn hdone _ fun s i h => ⟨⟨h.1.1.ir i, h.1.2.ir i⟩, h.2⟩) fun _ _ _ => trivial)
      fun _ _ => own_bus
  · refine .bind (Q := fun _ => At n _) (.mapped (.bind (hs_read1' hn hdone _) fun x => .pure fun _ h => h)
      fun _ _ => own_bus) fun b => ?_
    refine .ite (fun _ => ?_) fun _ => .pure fun _ _ => trivial
    refine .bind (.mapped (hs_clearIr hn hdone _ fun s i h => ⟨⟨h.1.1.ir i, h.1.2.ir i⟩, h.2⟩) fun _ _ => own_bus)
      fun _ => .throw fun c h _ _ => ?_
    exact h.2.2.trans h.1.1.wr.symm

theorem udp_flushLoopOwn {n : Nat} (hn : n < 8) (d : List U8 × List U8) (K : List Packet) (A : List U8) (p : U16)
    (data : List U8) (z : Nat) (u : UdpSocket) (hu : u.socket = sockOf n) (fuel : Nat) :
    HoareE (At n fun s => (PktSent 2 d K p data s ∧ RxReady A s) ∧ s.txSize = z)
      (u.flushLoop (Chip.dev sched faults).bus fuel) (fun _ _ => True) (fun e c => Own e → Drained n c) := by
  induction fuel with
  | zero => exact .outOfFuel
  | succ k ih =>
    constructor
    intro c hc
    have h := (udp_tryFlush (sched := sched) (faults := faults) hn d K A p data z u hu).run c hc
    have h' := (udp_tryFlushOwn (sched := sched) (faults := faults) hn d K A p data z u hu).run c hc
    unfold UdpSocket.flushLoop
    generalize u.tryFlushTx (Chip.dev sched faults).bus c = r at h h'
    obtain ⟨r, c'⟩ := r
    cases r with
    | ok a => exact h'
    | err e =>
      cases e with
      | wouldBlock => exact ih.run c' h
      | other e => exact fun ho => h' ho nofun
    | panic => exact h'
    | fuel => exact h'

theorem PktIdle.drained {m : Nat} {d : List U8 × List U8} {K : List Packet} {A : List U8} {n : Nat} {c : Chip}
    (h : PktIdle m d K A (c.socks n)) : Drained n c := h.base.rd.trans h.wr.symm

theorem udp_sendPieceOwn {n : Nat} (hn : n < 8) (d : List U8 × List U8) (K : List Packet) (A : List U8) (z : Nat)
    (u : UdpSocket) (hu : u.socket = sockOf n) (fuel : Nat) (data : List U8) (hd : data ≠ []) (hl : data.length ≤ z) :
    HoareE (At n fun s => PktIdle 2 d K A s ∧ s.txSize = z)
      (u.socketSend (Chip.dev sched faults).bus fuel data) (fun _ _ => True) (fun e c => Own e → Drained n c) := by
  have hP : StableS (fun s => PktIdle 2 d K A s ∧ s.txSize = z) :=
    (stable_pktIdle (by omega) d K A).and (stable_txSize z)
  unfold UdpSocket.socketSend Socket.getTxFreeSize
  refine .bind (.of (hs_checkStatus hn hP u hu) fun _ _ h _ => h.1.drained) fun _ => ?_
  refine .ite (fun _ => .throw fun _ h _ => h.1.drained) fun _ => ?_
  rw [hu]
  refine .bind (.mapped (hs_freeIdle hn (by omega) d K A z) fun _ _ => own_bus) fun v => HoareE.fact' fun hv => ?_
  refine .ite (fun _ => .throw fun _ h _ => h.1.drained) fun _ => ?_
  dsimp only
  have hG := frame_and_rx (frame_and_size (frame_pktBase (m := 2) (by omega) d K) z) A
  suffices H : HoareE (At n fun s => PktIdle 2 d K A s ∧ s.txSize = z) (do
      let writePointer ← M.mapErr (NbError.ofBus (E := E)) (Socket.getTxWritePointer (Chip.dev sched faults).bus (sockOf n))
      M.mapErr NbError.ofBus ((Chip.dev sched faults).bus.write (sockOf n).txBuffer writePointer data)
      M.mapErr NbError.ofBus (Socket.setTxWritePointer (Chip.dev sched faults).bus (sockOf n)
            (writePointer + BitVec.ofNat 16 data.length))
      u.blockSendCommand (Chip.dev sched faults).bus fuel
      pure data.length) (fun _ _ => True) (fun e c => Own e → Drained n c) by
    split
    · exact H
    · have : data.take v.toNat = data := List.take_of_length_le (by omega)
      unfold M.sliceTo
      rw [if_pos (by omega), this]
      exact H
  refine .bind (Q := fun p => At n fun s => ((PktBase 2 d K s ∧ s.txSize = z) ∧ RxReady A s) ∧ s.txWr = p ∧
    s.txLimit = p ∧ s.used + data.length ≤ s.txSize)
    (.mapped ((hs_readMem hn hP _ (.inl rfl)).post ?_) fun _ _ => own_bus) fun p => ?_
  · rintro p c ⟨⟨h1, h2⟩, h3⟩
    refine ⟨⟨⟨h1.base, h2⟩, h1.rx⟩, h3.symm, h1.wr.symm.trans h3.symm, ?_⟩
    have e1 : Sock.used (c.socks n) = 0 := h1.base.used
    have e2 : Sock.txSize (c.socks n) = z := h2
    omega
  refine .bind (.mapped (hs_payload hn hG p data) fun _ _ => own_bus) fun _ => ?_
  refine .bind (.mapped (hs_advance hn hG p data) fun _ _ => own_bus) fun _ => ?_
  have hstG : StableS (fun s => ((PktBase 2 d K s ∧ s.txSize = z) ∧ RxReady A s) ∧
      s.txWr = p + BitVec.ofNat 16 data.length ∧ s.txLimit = p ∧
      s.used + data.length ≤ s.txSize ∧ ring s.txMem s.txSize p data.length = data) := by
    rintro s a ⟨h1, h2, h3, h4, h5⟩
    have := (act_txBase h1.1.1.txBase a).2
    exact ⟨hG.stable s a h1, by rw [act_txWr]; exact h2, by rw [act_txLimit]; exact h3,
      by rw [act_txSize]; omega, by rw [act_txMem, act_txSize]; exact h5⟩
  unfold UdpSocket.blockSendCommand Socket.command
  rw [hu]
  refine .bind (.bind (.mapped (hs_write1 (Q := fun s => (PktSent 2 d K p data s ∧ RxReady A s) ∧ s.txSize = z)
    hn hstG _ _ (fun s hs => ?_)) fun _ _ => own_bus) fun _ => udp_flushLoopOwn hn d K A p data z u hu fuel)
    fun _ => .pure fun c hc => trivial
  obtain ⟨⟨⟨h1, h2⟩, h3⟩, h4, h5, h6, h7⟩ := hs
  exact ⟨⟨send_pkt h1 hd h4 h5 h6 h7, h3.send⟩, h2⟩

theorem _root_.W5500.HoareE.with {σ ε α : Type} {P : σ → Prop} {Q T : α → σ → Prop} {R : ε → σ → Prop} {X : σ → Prop} {m : M σ ε α}
    (h : HoareE P m T R) (h' : Hoare P m Q X) : HoareE P m Q R := by
  constructor
  intro s hs
  have a := h.run s hs
  have b := h'.run s hs
  generalize m s = r at a b
  obtain ⟨_ | _ | _ | _, t⟩ := r
  · exact b
  · exact a
  · trivial
  · trivial

theorem udp_sendLoopOwn {n : Nat} (hn : n < 8) (d : List U8 × List U8) (A : List U8) (z : Nat) (hz : z ≠ 0)
    (u : UdpSocket) (hu : u.socket = sockOf n) (fuel : Nat) (buf : List U8) (k : Nat) (v : U16) (hv : v.toNat = z) :
    ∀ (K : List Packet) (t : Nat), t ≤ buf.length →
    HoareE (At n fun s => PktIdle 2 d K A s ∧ s.txSize = z)
      (u.sendAllLoop (Chip.dev sched faults).bus fuel buf k v t) (fun _ _ => True) (fun e c => Own e → Drained n c) := by
  induction k generalizing v with
  | zero => exact fun K t _ => .outOfFuel
  | succ k ih =>
    intro K t ht
    unfold UdpSocket.sendAllLoop
    refine .ite (fun he => .pure fun c h => trivial) fun hne => ?_
    have hrem : buf.drop t ≠ [] := by
      intro e
      have := congrArg List.length e
      rw [List.length_drop] at this
      simp only [List.length_nil] at this
      omega
    have htk : (buf.drop t).take (min v.toNat (buf.drop t).length) = (buf.drop t).take z := by
      rw [hv]
      by_cases h : z ≤ (buf.drop t).length
      · rw [Nat.min_eq_left h]
      · rw [Nat.min_eq_right (by omega), List.take_length, List.take_of_length_le (by omega)]
    unfold M.sliceFrom M.sliceTo
    rw [if_pos ht]
    refine .bind (Q := fun r c => At n (fun s => PktIdle 2 d K A s ∧ s.txSize = z) c ∧ r = buf.drop t)
      (.pure fun _ h => ⟨h, rfl⟩) fun r => HoareE.fact' fun hr => ?_
    subst hr
    dsimp only
    rw [if_pos (Nat.min_le_right _ _), htk]
    refine .bind (Q := fun r c => At n (fun s => PktIdle 2 d K A s ∧ s.txSize = z) c ∧ r = (buf.drop t).take z)
      (.pure fun _ h => ⟨h, rfl⟩) fun r => HoareE.fact' fun hr => ?_
    subst hr
    have hpl : ((buf.drop t).take z).length = min z (buf.drop t).length := List.length_take
    have hpos := List.length_pos_iff.mpr hrem
    have hne' : (buf.drop t).take z ≠ [] := List.length_pos_iff.mp (by omega)
    refine .bind ((udp_sendPieceOwn hn d K A z u hu fuel _ hne' (by omega)).with
      (udp_sendPiece hn d K A z u hu fuel _ hne' (by omega))) fun sent => ?_
    refine HoareE.fact fun hs => ?_
    subst hs
    suffices H : ∀ b, HoareE (At n fun s => PktIdle 2 d (K ++ [⟨d.1, d.2, (buf.drop t).take z, b⟩]) A s ∧ s.txSize = z) _ _ _ by
      constructor
      rintro c ⟨⟨b, hb⟩, h2⟩
      exact (H b).run c ⟨hb, h2⟩
    intro b
    unfold Socket.getTxFreeSize
    rw [hu]
    refine .bind (.mapped (hs_freeIdle hn (by omega) d _ A z) fun _ _ => own_bus)
      fun v' => HoareE.fact' fun hv' => ?_
    exact ih v' hv' (K ++ [⟨d.1, d.2, (buf.drop t).take z, b⟩]) (t + ((buf.drop t).take z).length) (by
      rw [hpl, List.length_drop]; omega)

theorem udp_sendAllOwn {n : Nat} (hn : n < 8) (d : List U8 × List U8) (K : List Packet) (A : List U8) (z : Nat)
    (u : UdpSocket) (hu : u.socket = sockOf n) (fuel : Nat) (buf : List U8) :
    HoareE (At n fun s => PktIdle 2 d K A s ∧ s.txSize = z)
      (u.socketSendAll (Chip.dev sched faults).bus fuel buf) (fun _ _ => True) (fun e c => Own e → Drained n c) := by
  have hP : StableS (fun s => PktIdle 2 d K A s ∧ s.txSize = z) :=
    (stable_pktIdle (by omega) d K A).and (stable_txSize z)
  unfold UdpSocket.socketSendAll Socket.getTxFreeSize
  refine .bind (.of (hs_checkStatus hn hP u hu) fun _ _ h _ => h.1.drained) fun _ => ?_
  refine .ite (fun _ => .throw fun _ h _ => h.1.drained) fun _ => ?_
  rw [hu]
  refine .bind (.mapped (hs_freeIdle hn (by omega) d K A z) fun _ _ => own_bus) fun v => HoareE.fact' fun hv => ?_
  refine .ite (fun _ => .throw fun _ h _ => h.1.drained) fun hne => ?_
  refine udp_sendLoopOwn hn d A z ?_ u hu fuel buf fuel v hv K 0 (Nat.zero_le _)
  rintro rfl
  exact hne (BitVec.eq_of_toNat_eq hv)

/-- `send` of an idle socket. -/
theorem udp_sendIdleOwn {n : Nat} (hn : n < 8) (u : UdpSocket) (hu : u.socket = sockOf n) (K : List Packet) (A : List U8)
    (z : Nat) (qs : List Dgram) (fuel : Nat) (data : List U8) :
    HoareE (At n (UdpIdle K A z qs)) (u.socketSendAll (Chip.dev sched faults).bus fuel data) (fun _ _ => True)
      (fun e c => Own e → Drained n c) := by
  constructor
  intro c hc
  have hc : UdpIdle K A z qs (c.socks n) := hc
  exact (udp_sendAllOwn hn (c.socks n).dest K A z u hu fuel data).run c ⟨hc.idle, hc.size⟩

/-- `send_to` of an idle socket. -/
theorem udp_sendToOwn {n : Nat} (hn : n < 8) (u : UdpSocket) (hu : u.socket = sockOf n) (K : List Packet) (A : List U8)
    (z : Nat) (qs : List Dgram) (fuel : Nat) (data : List U8) (a : SockAddr4) :
    HoareE (fun s : UdpSocket × Chip => s.1 = u ∧ At n (UdpIdle K A z qs) s.2 ∧ Coherent n u s.2)
      (UdpSocket.socketSendTo (Chip.dev sched faults).bus fuel a data) (fun _ _ => True)
      (fun e s => Own e → Drained n s.2) := by
  unfold UdpSocket.socketSendTo
  refine .bind (.of (.mapErr (udp_setDestination hn (stable_udpIdle K A z qs)
    (fun s b x hb h1 h2 h => h.setMem b x (dest_indifferent hb h1 h2)) u hu a)) fun e s h _ => h.2.1.idle.drained) fun _ => ?_
  refine .bind (Q := fun d s => d.1 = { u with destination := some a } ∧ s.1 = { u with destination := some a } ∧
    At n (UdpIdle K A z qs) s.2) ⟨fun s h => ⟨h.1, h.1, h.2.1⟩⟩ fun d => ?_
  refine .fact fun hd => ?_
  rw [hd]
  exact ((udp_sendIdleOwn hn { u with destination := some a } hu K A z qs fuel data).onSnd' _).conseq (fun _ h => h)
    (fun _ _ _ => trivial) fun _ _ h => h.2

/-- `receive`. -/
theorem udp_receiveOwn {n : Nat} (hn : n < 8) (u : UdpSocket) (hu : u.socket = sockOf n) (K : List Packet) (A : List U8)
    (z : Nat) (qs : List Dgram) (r0 : U16) (fuel : Nat) (b0 : List U8) :
    HoareE (fun s : List U8 × Chip => s.1 = b0 ∧ At n (fun s => UdpIdle K A z qs s ∧ s.rxRdReg = r0) s.2)
      (do
        let (received, header) ← u.socketReceive (Chip.dev sched faults).bus fuel
        pure (received, SockAddr.v4 header.origin))
      (fun _ _ => True) (fun e s => Own e → (s.2.socks n).rxRdReg = r0) := by
  refine .bind (Q := fun _ _ => True) ?_ fun _ => .pure fun _ _ => trivial
  suffices H : HoareE (fun s : List U8 × Chip => s.1 = b0 ∧ At n (fun s => UdpIdle K A z qs s ∧ s.rxRdReg = r0) s.2)
      (M.onSnd (recvHead (Chip.dev sched faults).bus fuel u b0.length) >>= fun x =>
        recvTail (Chip.dev sched faults).bus u b0.length x.1 x.2.1 x.2.2) (fun _ _ => True)
        (fun e s => Own e → (s.2.socks n).rxRdReg = r0) by
    constructor
    rintro ⟨b, c⟩ hs
    have hb : b = b0 := hs.1
    subst hb
    have := H.run (b, c) hs
    rw [← receive_split] at this
    exact this
  refine .bind (.of (.onSnd' b0 (udp_recvHead hn u hu K A z qs r0 fuel b0.length)) fun _ s h _ => h.2.2) fun x => ?_
  refine .ofErr (T := fun _ => True) (p := fun e => ¬ Own e) ⟨fun s _ => ?_⟩ ?_ fun e s h ho => absurd ho h
  · generalize recvTail (Chip.dev sched faults).bus u b0.length x.1 x.2.1 x.2.2 s = r
    obtain ⟨_ | _ | _ | _, t⟩ := r <;> exact trivial
  · unfold recvTail
    have hb : ∀ e : E, ¬ Own (NbError.ofBus e) := fun e h => own_bus h
    exact .bind (.withPrefix (.mapErr _ hb)) fun _ => .bind (.onSnd (.mapErr _ hb)) fun _ =>
      .bind (.onSnd (.mapErr _ hb)) fun _ => .bind (.onSnd (.mapErr _ hb)) fun _ => .pure _

end W5500.Spec
