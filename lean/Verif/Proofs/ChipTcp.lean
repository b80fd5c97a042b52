import Verif.Proofs.ChipTx
/-! # TCP on the chip -/

namespace W5500.Spec
open W5500 socketn
variable {E ε α : Type} {sched : Nat → List (Nat × Act)} {faults : Nat → Option (E × Nat)}

namespace Sock

/-- TCP socket whose transmitted bytes followed by the committed ones are `S`. -/
structure TcpTx (S : List U8) (s : Sock) : Prop where
  tcp : s.proto = 1
  base : TxBase s
  out : s.stream ++ s.pending = S

theorem pending_cell {s : Sock} (h : TxBase s) {i : Nat} (hi : i < (s.txLimit - s.txRd).toNat) :
    (s.txRd - s.una).toNat + i < s.used ∧
    (s.txRd.toNat + i) % s.txSize = (s.una.toNat + ((s.txRd - s.una).toNat + i)) % s.txSize := by
  refine ⟨by rw [h.used_eq]; omega, ?_⟩
  have := ptr_mod h.size.dvd s.una (s.txRd - s.una).toNat
  rw [add_sub_ofNat] at this
  rw [← Nat.add_assoc, Nat.add_mod, this, ← Nat.add_mod]

theorem pending_pokeTx {s : Sock} (h : TxBase s) (a : U16) (x : U8)
    (hf : ∀ j, j < s.used → (s.una.toNat + j) % s.txSize ≠ a.toNat % s.txSize) :
    (s.pokeTx a x).pending = s.pending := by
  apply ring_congr
  intro i hi
  obtain ⟨h1, h2⟩ := pending_cell h (i := i) hi
  show (if _ then _ else _) = _
  rw [if_neg]
  show ¬ (s.txRd.toNat + i) % s.txSize = _
  rw [h2]
  exact hf _ h1

theorem txBase_pokeWr {s : Sock} (h : TxBase s) {a : U16} (x : U8) (ha : a = 0x24 ∨ a = 0x25) :
    TxBase (s.pokeReg a x) := by
  rw [pokeWr_eq s x ha]
  rcases ha with rfl | rfl <;> exact ⟨h.size, h.fits⟩

theorem push_pending (s : Sock) (bs : List U8) : (s.push bs).pending = s.pending := by
  unfold pending txSize
  rw [push_mem, push_txMem, push_txRd, push_txLimit]

theorem act_tcpTx {S : List U8} {s : Sock} (h : TcpTx S s) (a : Act) : TcpTx S (s.act a) := by
  refine ⟨by rw [act_proto]; exact h.tcp, (act_txBase h.base a).1, ?_⟩
  have ho := h.out
  have hp := h.tcp
  have hpush : ∀ (c : Prop) [Decidable c] (bs : List U8),
      (if c then s.push bs else s).stream ++ (if c then s.push bs else s).pending = S := by
    intro c _ bs
    split
    · rw [push_stream, push_pending]; exact ho
    · exact ho
  cases a with
  | arrive bs => exact hpush _ _
  | datagram d => exact hpush _ _
  | frame f => exact hpush _ _
  | transmit k =>
    simp only [act, if_pos hp]
    rw [← ho, List.append_assoc]
    congr 1
    show _ ++ ring s.txMem s.txSize (s.txRd + _) (s.txLimit - (s.txRd + _)).toNat = _
    rw [sub_add_toNat (Nat.min_le_right _ _), ← ring_add h.base.size.dvd]
    unfold pending
    congr 1
    omega
  | ack k =>
    simp only [act, if_pos hp]
    exact ho
  | emit d =>
    simp only [act]
    rw [if_neg (by rw [hp]; omega)]
    exact ho
  | raise b => exact ho
  | status x => exact ho

theorem stable_tcpTx (S : List U8) : StableS (TcpTx S) := fun _ a h => act_tcpTx h a

theorem frame_tcpTx (S : List U8) : TxFrame (TcpTx S) where
  stable := stable_tcpTx S
  base _ h := h.base
  pokeTx s a x h hf := ⟨h.tcp, ⟨h.base.size, h.base.fits⟩, by rw [pending_pokeTx h.base a x hf]; exact h.out⟩
  pokeWr s a x ha h := by
    have hb := txBase_pokeWr h.base x ha
    rw [pokeWr_eq s x ha] at hb ⊢
    rcases ha with rfl | rfl <;> exact ⟨h.tcp, hb, h.out⟩

/-- The receive side: Sn_RX_RD still holds the released point. -/
structure RxReady (A : List U8) (s : Sock) : Prop where
  core : RxCore A s
  reg : s.rxRdReg = s.rxRd

theorem stable_rxReady (A : List U8) : StableS (RxReady A) :=
  fun s a h => ⟨stable_rxCore A s a h.core, by rw [act_rxRdReg, act_rxRd]; exact h.reg⟩

theorem frame_and_rx {G : Sock → Prop} (hG : TxFrame G) (A : List U8) :
    TxFrame (fun s => G s ∧ RxReady A s) where
  stable := hG.stable.and (stable_rxReady A)
  base _ h := hG.base _ h.1
  pokeTx s a x h hf := ⟨hG.pokeTx s a x h.1 hf, ⟨h.2.core.size, h.2.core.fits, h.2.core.arrived⟩, h.2.reg⟩
  pokeWr s a x ha h := by
    refine ⟨hG.pokeWr s a x ha h.1, ?_⟩
    rw [pokeWr_eq s x ha]
    rcases ha with rfl | rfl
    all_goals exact ⟨⟨h.2.core.size, h.2.core.fits, h.2.core.arrived⟩, h.2.reg⟩

/-- SEND commits what was written. -/
theorem send_base {s : Sock} {p : U16} {data : List U8} (h : TxBase s) (hw : s.txWr = p + BitVec.ofNat 16 data.length)
    (hl : s.txLimit = p) (hf : s.used + data.length ≤ s.txSize)
    (hr : ring s.txMem s.txSize p data.length = data) :
    TxBase (s.command 0x20) ∧ (s.command 0x20).used = s.used + data.length ∧
      (s.command 0x20).pending = s.pending ++ data := by
  have hz := h.size.le
  have hu := h.used_eq
  have hcmd : s.command 0x20 = { s with txLimit := s.txWr } := rfl
  have h1 : (s.txWr - s.txRd).toNat = (s.txLimit - s.txRd).toNat + data.length := by
    rw [hw, ← hl]
    exact add_sub_toNat (by omega)
  have hb : TxBase (s.command 0x20) := by
    rw [hcmd]
    refine ⟨h.size, ?_⟩
    show (s.txRd - s.una).toNat + (s.txWr - s.txRd).toNat ≤ s.txSize
    omega
  refine ⟨hb, ?_, ?_⟩
  · rw [hb.used_eq, hcmd]
    show (s.txRd - s.una).toNat + (s.txWr - s.txRd).toNat = _
    omega
  · rw [hcmd]
    show ring s.txMem s.txSize s.txRd (s.txWr - s.txRd).toNat = _
    rw [h1, ring_add h.size.dvd, add_sub_ofNat]
    unfold pending
    rw [hl, hr]

end Sock

open Sock

/-- State of a TCP socket between two calls. -/
structure TcpIdle (S A : List U8) (s : Sock) : Prop where
  tx : TcpTx S s
  rx : RxReady A s
  idle : s.txWr = s.txLimit

theorem stable_tcpIdle (S A : List U8) : StableS (TcpIdle S A) :=
  fun s a h => ⟨stable_tcpTx S s a h.tx, stable_rxReady A s a h.rx, by rw [act_txWr, act_txLimit]; exact h.idle⟩

theorem tcpIdle_ir {S A : List U8} {s : Sock} (i : U8) (h : TcpIdle S A s) : TcpIdle S A { s with ir := i } :=
  ⟨⟨h.tx.tcp, ⟨h.tx.base.size, h.tx.base.fits⟩, h.tx.out⟩,
    ⟨⟨h.rx.core.size, h.rx.core.fits, h.rx.core.arrived⟩, h.rx.reg⟩, h.idle⟩

/-- The free size the chip reports to a torn read while `free` only grows from `lo` to at most `hi`. -/
def TornFree (lo hi f : Nat) : Prop := ∃ v1 v2, lo ≤ v1 ∧ v1 ≤ v2 ∧ v2 ≤ hi ∧ f = v1 / 256 * 256 + v2 % 256

/-- `socket_send` of TCP. `u`, `z`, `p0`: bound of the unacknowledged bytes, buffer size and Sn_TX_WR before. If the
call does not return `Ok`, either Sn_TX_WR was changed or nothing happened. -/
theorem tcp_send {n : Nat} (hn : n < 8) (S A : List U8) (u z : Nat) (p0 : U16) (fuel : Nat) (data : List U8) :
    Hoare (At n fun s => TcpIdle S A s ∧ s.used ≤ u ∧ s.txSize = z ∧ s.txWr = p0)
      (TcpSocket.socketSend (Chip.dev sched faults).bus fuel ⟨sockOf n⟩ data)
      (fun k => At n fun s => TcpIdle (S ++ data.take k) A s ∧ ∃ f, TornFree (z - u) z f ∧ k = min data.length f)
      (At n fun s => s.txWr = p0 → TcpIdle S A s) := by
  have hG := frame_and_rx (frame_tcpTx S) A
  have hP : StableS (fun s => TcpIdle S A s ∧ s.used ≤ u ∧ s.txSize = z ∧ s.txWr = p0) := by
    rintro s a ⟨h1, h2, h3, h4⟩
    exact ⟨stable_tcpIdle S A s a h1, Nat.le_trans (act_txBase h1.tx.base a).2 h2, by rw [act_txSize]; exact h3,
      by rw [act_txWr]; exact h4⟩
  have hexc : ∀ c, At n (fun s => TcpIdle S A s ∧ s.used ≤ u ∧ s.txSize = z ∧ s.txWr = p0) c →
    At n (fun s => s.txWr = p0 → TcpIdle S A s) c := fun c h _ => h.1
  unfold TcpSocket.socketSend TcpSocket.socketIsConnected
  refine .bind (Q := fun _ => At n fun s => TcpIdle S A s ∧ s.used ≤ u ∧ s.txSize = z ∧ s.txWr = p0) ?_ fun b => ?_
  · refine .bind (.mapErr ((hs_read1' hn hP _).exc hexc)) fun x => .pure (fun _ h => h)
  refine .ite (fun _ => .throw hexc) fun _ => ?_
  refine .bind (.mapErr ((hs_readFree hn hP (fun s h => ⟨h.1.tx.base, h.1.idle⟩)).exc hexc))
    fun v => ?_
  -- the accepted part of the buffer
  dsimp only
  suffices H : ∀ wd, data.take (min data.length v.toNat) = wd → Hoare _ (do
      let writePointer ← M.mapErr TcpSocketError.other
        (Socket.getTxWritePointer (Chip.dev sched faults).bus (sockOf n))
      M.mapErr TcpSocketError.other ((Chip.dev sched faults).bus.write (sockOf n).txBuffer writePointer wd)
      M.mapErr TcpSocketError.other (Socket.setTxWritePointer (Chip.dev sched faults).bus (sockOf n)
            (writePointer + BitVec.ofNat 16 wd.length))
      M.mapErr TcpSocketError.other (Socket.command (Chip.dev sched faults).bus (sockOf n) Command.send)
      M.mapErr TcpSocketError.other (RawDevice.waitSendOk (Chip.dev sched faults).bus (sockOf n) fuel)
      M.mapErr TcpSocketError.other (Socket.resetInterrupt (Chip.dev sched faults).bus (sockOf n) Interrupt.sendOk)
      pure wd.length) _ _ by
    split
    · exact H data (by rw [Nat.min_eq_left (by omega), List.take_length])
    · unfold M.sliceTo
      rw [if_pos (by omega)]
      exact H _ (by rw [Nat.min_eq_right (by omega)])
  intro wd hwd
  have hwl : wd.length = min data.length v.toNat := by rw [← hwd, List.length_take]; omega
  refine Hoare.pre (P := fun c => At n (fun s => TcpIdle S A s ∧ s.used + wd.length ≤ s.txSize ∧ s.txWr = p0) c ∧
    TornFree (z - u) z v.toNat) ?_ (fun c hc => ?_)
  rotate_left
  · obtain ⟨⟨h1, h2, h3, h3'⟩, h4, s1, s2, ⟨p1, q1, r1, _⟩, ⟨p2, q2, r2, _⟩, e1, e2, e3, e4⟩ := hc
    refine ⟨⟨h1, by omega, h3'⟩, s1.fsr.toNat, s2.fsr.toNat, ?_, e4, ?_, e3⟩
    · rw [fsr_eq p1.tx.base p1.idle]; omega
    · rw [fsr_eq p2.tx.base p2.idle]; omega
  refine Hoare.fact' fun htorn => ?_
  have hP2 : StableS (fun s => TcpIdle S A s ∧ s.used + wd.length ≤ s.txSize ∧ s.txWr = p0) := by
    rintro s a ⟨h1, h2, h3⟩
    have := (act_txBase h1.tx.base a).2
    exact ⟨stable_tcpIdle S A s a h1, by rw [act_txSize]; omega, by rw [act_txWr]; exact h3⟩
  refine .bind (Q := fun p c => At n (fun s => (TcpTx S s ∧ RxReady A s) ∧ s.txWr = p0 ∧ s.txLimit = p0 ∧
    s.used + wd.length ≤ s.txSize) c ∧ p = p0) (.mapErr ((hs_readMem hn hP2 _ (.inl rfl)).conseq (fun _ h => h) ?_ fun _ h _ => h.1)) fun p => ?_
  · rintro p c ⟨⟨h1, h2, h3⟩, h4⟩
    exact ⟨⟨⟨h1.tx, h1.rx⟩, h3, by rw [← h1.idle]; exact h3, h2⟩, h4.trans h3⟩
  refine Hoare.fact' fun hp => ?_
  subst hp
  refine .bind (.mapErr ((hs_payload hn hG p wd).exc fun c h _ => ?_)) fun _ => ?_
  · exact ⟨h.1.1, h.1.2, h.2.1.trans h.2.2.1.symm⟩
  refine .bind (.mapErr ((hs_advance hn hG p wd).exc fun c h hw => ?_)) fun _ => ?_
  · exact ⟨h.1.1, h.1.2, hw.trans h.2.symm⟩
  have hstG : StableS (fun s => (TcpTx S s ∧ RxReady A s) ∧ s.txWr = p + BitVec.ofNat 16 wd.length ∧ s.txLimit = p ∧
      s.used + wd.length ≤ s.txSize ∧ ring s.txMem s.txSize p wd.length = wd) := by
    rintro s a ⟨h1, h2, h3, h4, h5⟩
    have := (act_txBase h1.1.base a).2
    exact ⟨hG.stable s a h1, by rw [act_txWr]; exact h2, by rw [act_txLimit]; exact h3,
      by rw [act_txSize]; omega, by rw [act_txMem, act_txSize]; exact h5⟩
  have hstI : StableS (fun s => TcpIdle (S ++ wd) A s ∧ s.txWr = p + BitVec.ofNat 16 wd.length ∧ wd.length ≤ 16384) :=
    (stable_tcpIdle _ A).and (StableS.and (fun s a h => by rw [act_txWr]; exact h) (StableS.const _))
  -- an unchanged pointer means that no data was accepted
  have hexc2 : ∀ c, At n (fun s => TcpIdle (S ++ wd) A s ∧ s.txWr = p + BitVec.ofNat 16 wd.length ∧ wd.length ≤ 16384) c →
      At n (fun s => s.txWr = p → TcpIdle S A s) c := by
    rintro c ⟨h1, h2, h3⟩ h4
    rw [h2] at h4
    have hz : wd.length = 0 := by
      have := congrArg BitVec.toNat h4
      simp only [BitVec.toNat_add, BitVec.toNat_ofNat] at this
      have := p.isLt
      omega
    rw [List.length_eq_zero_iff.mp hz, List.append_nil] at h1
    exact h1
  refine .bind (.mapErr ((hs_write1 (Q := fun s => TcpIdle (S ++ wd) A s ∧ s.txWr = p + BitVec.ofNat 16 wd.length ∧
    wd.length ≤ 16384) hn hstG _ _ (fun s hs => ?_)).exc fun c h => ?_)) fun _ => ?_
  · obtain ⟨⟨h1, h2⟩, h3, h4, h5, h6⟩ := hs
    obtain ⟨b1, b2, b3⟩ := send_base h1.base h3 h4 h5 h6
    refine ⟨⟨⟨h1.tcp, b1, ?_⟩, ⟨⟨h2.core.size, h2.core.fits, h2.core.arrived⟩, h2.reg⟩, rfl⟩, h3, ?_⟩
    · show s.stream ++ (s.command 0x20).pending = _
      rw [b3, ← List.append_assoc, h1.out]
    · have := h1.base.size.le
      omega
  · rcases h with ⟨h1, h2, h3, h4, h5⟩ | h
    · intro hw
      exact ⟨h1.1, h1.2, hw.trans h3.symm⟩
    · exact hexc2 c h
  refine .bind (.mapErr ((hs_waitSendOk hn hstI fuel).exc hexc2)) fun _ => ?_
  refine .bind (.mapErr ((hs_clearIr hn hstI _ (fun s i h => ⟨tcpIdle_ir i h.1, h.2⟩)).exc hexc2)) fun _ =>
    .pure fun c hc => ?_
  have htk : data.take wd.length = wd := by rw [hwl, hwd]
  exact ⟨by rw [htk]; exact hc.1, v.toNat, htorn, hwl⟩

/-! ## Receive -/

theorem recv_flag (x : U8) : (decide (x &&& Interrupt.toU8 .receive ≠ 0)) = decide (x &&& 4 ≠ 0) := rfl

/-- The RECV interrupt is pending. -/
def RecvPending (s : Sock) : Prop := s.ir &&& 4 ≠ 0

theorem stable_recvPending : StableS RecvPending := by
  have hor : ∀ a b : U8, a &&& 4 ≠ 0 → (a ||| b) &&& 4 ≠ 0 := by
    intro a b h h'
    rw [BitVec.and_or_distrib_right] at h'
    exact h (BitVec.or_eq_zero_iff.mp h').1
  have hpush : ∀ (s : Sock) bs, RecvPending s → RecvPending (s.push bs) := by
    intro s bs h
    unfold Sock.push
    split
    · exact hor _ _ h
    · exact h
  intro s a h
  cases a <;> simp only [Sock.act] <;> (try split) <;> first | exact h | exact hpush _ _ h | exact hor _ _ h

/-- Advancing Sn_RX_RD. -/
theorem hs_setRxRd {n : Nat} (hn : n < 8) {G : Sock → Prop} (hG : StableS G)
    (hmem : ∀ s (a : U16) x, a = 0x28 ∨ a = 0x29 → G s → G { s with mem := fun b => if b = a then x else s.mem b })
    (A bs : List U8) (p r : U16) :
    Hoare (At n fun s => G s ∧ (RxCore A s ∧ bs <+: s.queue) ∧ s.rxRd = p)
      (Socket.setRxReadPointer (Chip.dev sched faults).bus (sockOf n) r)
      (fun _ => At n fun s => (G s ∧ (RxCore A s ∧ bs <+: s.queue) ∧ s.rxRd = p) ∧ s.rxRdReg = r)
      (At n fun s => G s ∧ (RxCore A s ∧ bs <+: s.queue) ∧ s.rxRd = p) := by
  have hst : ∀ T : (U16 → U8) → Prop, StableS (fun s => (G s ∧ (RxCore A s ∧ bs <+: s.queue) ∧ s.rxRd = p) ∧ T s.mem) := by
    intro T
    refine ((hG.and ((stable_queue A bs).and ?_))).and (stable_mem T)
    intro s a h
    rw [act_rxRd]; exact h
  have hpoke : ∀ (s : Sock) (a : U16) x, a = 0x28 ∨ a = 0x29 →
      s.pokeReg a x = { s with mem := fun b => if b = a then x else s.mem b } := by
    rintro s a x (rfl | rfl) <;> rfl
  have hkeep : ∀ (s : Sock) (a : U16) x, a = 0x28 ∨ a = 0x29 →
      (G s ∧ (RxCore A s ∧ bs <+: s.queue) ∧ s.rxRd = p) →
      (G (s.pokeReg a x) ∧ (RxCore A (s.pokeReg a x) ∧ bs <+: (s.pokeReg a x).queue) ∧ (s.pokeReg a x).rxRd = p) := by
    rintro s a x ha ⟨h1, ⟨h2, h3⟩, h4⟩
    have := hmem s a x ha h1
    rw [hpoke s a x ha]
    refine ⟨this, ⟨⟨?_, ?_, ?_⟩, ?_⟩, h4⟩ <;> rcases ha with rfl | rfl
    iterate 2 exact h2.size
    iterate 2 exact h2.fits
    iterate 2 exact h2.arrived
    iterate 2 exact h3
  refine ((hs_write2 (Q := fun s => (G s ∧ (RxCore A s ∧ bs <+: s.queue) ∧ s.rxRd = p) ∧ s.rxRdReg = r)
    hn (hst fun _ => True) (hst fun m => m 0x28 = r.extractLsb' 8 8) 0x28 r
      (fun s h => ?_) (fun s h => ?_)).pre fun c h => ⟨h, trivial⟩).exc fun c h => ?_
  · refine ⟨hkeep s _ _ (.inl rfl) h.1, ?_⟩
    rw [hpoke s _ _ (.inl rfl)]; rfl
  · refine ⟨hkeep s _ _ (.inr rfl) h.1, ?_⟩
    show Sock.reg16 (s.pokeReg 0x29 _) _ = _
    rw [hpoke s _ _ (.inr rfl)]
    show (s.mem 0x28 ++ r.extractLsb' 0 8 : BitVec (8 + 8)) = _
    rw [h.2]
    exact whole _
  · rcases h with h | h | h
    · exact h.1
    · exact h.1
    · exact h.1

/-- RECV: the bytes before Sn_RX_RD are released. -/
theorem hs_recv {n : Nat} (hn : n < 8) {G : Sock → Prop} (hG : StableS G)
    (hcmd : ∀ s r, G s → G { s with rxRd := r }) (A bs : List U8) (p : U16) :
    Hoare (At n fun s => (G s ∧ (RxCore A s ∧ bs <+: s.queue) ∧ s.rxRd = p) ∧
        s.rxRdReg = p + BitVec.ofNat 16 bs.length)
      (Socket.command (Chip.dev sched faults).bus (sockOf n) .receive)
      (fun _ => At n fun s => G s ∧ RxReady (A ++ bs) s)
      (At n fun s => ((G s ∧ (RxCore A s ∧ bs <+: s.queue) ∧ s.rxRd = p) ∧
        s.rxRdReg = p + BitVec.ofNat 16 bs.length) ∨ (G s ∧ RxReady (A ++ bs) s)) := by
  have hst : StableS (fun s => (G s ∧ (RxCore A s ∧ bs <+: s.queue) ∧ s.rxRd = p) ∧
      s.rxRdReg = p + BitVec.ofNat 16 bs.length) := by
    refine ((hG.and ((stable_queue A bs).and ?_))).and ?_
    · intro s a h
      rw [act_rxRd]; exact h
    · intro s a h
      rw [act_rxRdReg]; exact h
  refine hs_write1 hn hst _ _ (fun s h => ?_)
  obtain ⟨⟨h1, ⟨h2, h3⟩, h4⟩, h5⟩ := h
  have he : s.pokeReg COMMAND Command.receive.toU8 = { s with rxRd := s.rxRdReg } := rfl
  have hr : s.rxRdReg = s.rxRd + BitVec.ofNat 16 bs.length := by rw [h4]; exact h5
  have hl := h3.length_le
  rw [queue_length] at hl
  have hn : ({ s with rxRd := s.rxRdReg } : Sock).rsr.toNat = s.rsr.toNat - bs.length := by
    show (s.rxWr - s.rxRdReg).toNat = _
    rw [hr]
    exact sub_add_toNat hl
  have hq : ({ s with rxRd := s.rxRdReg } : Sock).queue = s.queue.drop bs.length := by
    unfold queue
    rw [hn, ring_drop h2.size.dvd _ _ _ _ hl, ← hr]
    rfl
  rw [he]
  refine ⟨hcmd s _ h1, ⟨h2.size, ?_, ?_⟩, rfl⟩
  · rw [hn]
    have := h2.fits
    show s.rsr.toNat - _ ≤ s.rxSize
    omega
  · rw [hq]
    show s.arrived = _
    rw [h2.arrived, List.append_assoc]
    congr 1
    conv => lhs; rw [← List.take_append_drop bs.length s.queue]
    rw [← List.prefix_iff_eq_take.mp h3]

/-- `socket_receive` of TCP. `q`: a lower bound of the queue length before; `pb`: whether the RECV interrupt is known
to be pending; `r0`: Sn_RX_RD before. If the call does not return `Ok`, either Sn_RX_RD was changed or nothing
happened. -/
theorem tcp_receive {n : Nat} (hn : n < 8) (S A : List U8) (q : Nat) (pb : Prop) (r0 : U16) (fuel : Nat) (b0 : List U8) :
    Hoare (fun s : List U8 × Chip => s.1 = b0 ∧
        At n (fun s => TcpIdle S A s ∧ q ≤ s.rsr.toNat ∧ (pb → RecvPending s) ∧ s.rxRdReg = r0) s.2)
      (TcpSocket.socketReceive (Chip.dev sched faults).bus fuel ⟨sockOf n⟩)
      (fun k s => ∃ bs : List U8, bs.length = k ∧ k ≤ b0.length ∧ s.1 = bs ++ b0.drop k ∧
        At n (TcpIdle S (A ++ bs)) s.2 ∧ (pb → min b0.length q ≤ k))
      (fun s => At n (fun s => s.rxRdReg = r0 → TcpIdle S A s) s.2) := by
  have hP : StableS (fun s => TcpIdle S A s ∧ q ≤ s.rsr.toNat ∧ (pb → RecvPending s) ∧ s.rxRdReg = r0) := by
    rintro s a ⟨h1, h2, h3, h4⟩
    exact ⟨stable_tcpIdle S A s a h1, Nat.le_trans h2 (rsr_mono h1.rx.core (.act s a)),
      fun hb => stable_recvPending s a (h3 hb), by rw [act_rxRdReg]; exact h4⟩
  unfold TcpSocket.socketReceive TcpSocket.socketIsConnected Socket.hasInterrupt
  refine .bind (.exc (.onSnd' b0 (Q := fun _ => At n fun s => TcpIdle S A s ∧ q ≤ s.rsr.toNat ∧ (pb → RecvPending s) ∧
      s.rxRdReg = r0)
    (.bind (.mapErr (hs_read1' hn hP _)) fun x => .pure (fun _ h => h)))
    fun _ h _ => h.2.1) fun x => ?_
  refine .ite (fun _ => .throw fun _ h _ => h.2.1) fun _ => ?_
  refine .bind (.exc (.onSnd' b0 (Q := fun y c => At n (fun s => TcpIdle S A s ∧ q ≤ s.rsr.toNat ∧
      (pb → RecvPending s) ∧ s.rxRdReg = r0) c ∧ (pb → y = true))
      (.mapErr (.bind (hs_read1 hn hP _) fun x => .pure (fun c h => ?_))))
    fun _ h _ => h.2.1) fun y => ?_
  · obtain ⟨h1, s0, h0, _, rfl⟩ := h
    exact ⟨h1, fun hp => decide_eq_true (h0.2.2.1 hp)⟩
  refine .ite (fun hy => .pure fun s h => ?_) fun _ => ?_
  · refine ⟨[], rfl, Nat.zero_le _, h.1, ?_, fun hp => ?_⟩
    · rw [List.append_nil]; exact h.2.1.1
    · rw [h.2.2 hp] at hy; simp at hy
  refine .bind (.exc (.onSnd' b0 (P := fun c => At n (fun s => TcpIdle S A s ∧ q ≤ s.rsr.toNat ∧
      (pb → RecvPending s) ∧ s.rxRdReg = r0) c ∧ (pb → y = true))
      (Q := fun v c => At n (fun s => (TcpIdle S A s ∧ v.toNat ≤ s.rsr.toNat ∧ s.rxRdReg = r0)) c ∧ q ≤ v.toNat)
      (.pre (.post (.mapErr (hs_receiveSize hn hP (fun s h => h.1.rx.core.rxFits) fuel)) ?_)
        fun c h => h.1)) fun _ h _ => h.2.1) fun v => ?_
  · rintro v c ⟨h1, s0, h2, h3, rfl⟩
    exact ⟨⟨h1.1, rsr_mono h2.1.rx.core h3, h1.2.2.2⟩, h2.2.1⟩
  refine .bind (Q := fun d s => d.1 = b0 ∧ s.1 = b0 ∧
    At n (fun s => (TcpIdle S A s ∧ v.toNat ≤ s.rsr.toNat ∧ s.rxRdReg = r0)) s.2 ∧
    q ≤ v.toNat) (.get fun s h => ⟨h.1, h⟩) fun d => ?_
  refine .fact fun hd => ?_
  rw [hd]
  have hk : (if v.toNat > b0.length then b0.length else v.toNat) = min b0.length v.toNat := by split <;> omega
  dsimp only
  rw [hk]
  generalize hkk : min b0.length v.toNat = k
  have hPv : StableS (fun s => TcpIdle S A s ∧ v.toNat ≤ s.rsr.toNat ∧ s.rxRdReg = r0) := by
    rintro s a ⟨h1, h2, h3⟩
    exact ⟨stable_tcpIdle S A s a h1, Nat.le_trans h2 (rsr_mono h1.rx.core (.act s a)), by rw [act_rxRdReg]; exact h3⟩
  refine .bind (Q := fun p s => s.1 = b0 ∧ q ≤ v.toNat ∧ p = r0 ∧ ∃ bs : List U8, bs.length = k ∧
      At n (fun s => (TcpTx S s ∧ s.txWr = s.txLimit) ∧ (RxCore A s ∧ bs <+: s.queue) ∧ s.rxRd = p ∧ s.rxRdReg = p) s.2)
    (.pre (P := fun s : List U8 × Chip => q ≤ v.toNat ∧ s.1 = b0 ∧ At n _ s.2) (.fact fun hqv =>
      .exc (.post (.onSnd' b0 (.mapErr (hs_readMem hn hPv _ (.inr rfl)))) fun p s h => ?_)
        fun _ h _ => h.2.1) fun s h => ⟨h.2.2, h.1, h.2.1⟩) fun p => ?_
  · obtain ⟨hb, ⟨h1, h2, h3⟩, h4⟩ := h
    have h4 : p = (s.2.socks n).rxRdReg := h4
    refine ⟨hb, hqv, h4.trans h3, (s.2.socks n).queue.take k, ?_, ⟨h1.tx, h1.idle⟩,
      ⟨h1.rx.core, List.take_prefix _ _⟩, ?_, h4.symm⟩
    · rw [List.length_take, queue_length]; omega
    · rw [h4]; exact h1.rx.reg.symm
  -- the rest, for known bytes `bs`
  suffices H : ∀ bs : List U8, bs.length = k → q ≤ v.toNat → p = r0 → Hoare (fun s : List U8 × Chip => s.1 = b0 ∧
      At n (fun s => (TcpTx S s ∧ s.txWr = s.txLimit) ∧ (RxCore A s ∧ bs <+: s.queue) ∧ s.rxRd = p ∧ s.rxRdReg = p) s.2) (do
      M.withPrefix k
          (M.mapErr TcpSocketError.other ((Chip.dev sched faults).bus.readSlice (sockOf n).rxBuffer p))
      M.onSnd (M.mapErr TcpSocketError.other
            (Socket.setRxReadPointer (Chip.dev sched faults).bus (sockOf n) (p + BitVec.ofNat 16 k)))
      M.onSnd (M.mapErr TcpSocketError.other (Socket.command (Chip.dev sched faults).bus (sockOf n) Command.receive))
      M.onSnd (M.mapErr TcpSocketError.other
            (Socket.resetInterrupt (Chip.dev sched faults).bus (sockOf n) Interrupt.receive))
      pure k) (fun k s => ∃ bs : List U8, bs.length = k ∧ k ≤ b0.length ∧ s.1 = bs ++ b0.drop k ∧
        At n (TcpIdle S (A ++ bs)) s.2 ∧ (pb → min b0.length q ≤ k))
      (fun s => At n (fun s => s.rxRdReg = r0 → TcpIdle S A s) s.2) by
    constructor
    rintro s ⟨h1, h2, h0, bs, h3, h4⟩
    exact (H bs h3 h2 h0).run s ⟨h1, h4⟩
  intro bs hbs hq hpr
  subst hpr
  have hst : StableS (fun s => (TcpTx S s ∧ s.txWr = s.txLimit) ∧ (RxCore A s ∧ bs <+: s.queue) ∧ s.rxRd = p ∧
      s.rxRdReg = p) := by
    refine ((stable_tcpTx S).and ?_).and ((stable_queue A bs).and (StableS.and ?_ ?_))
    · intro s a h
      rw [act_txWr, act_txLimit]; exact h
    · intro s a h
      rw [act_rxRd]; exact h
    · intro s a h
      rw [act_rxRdReg]; exact h
  have hkl : k ≤ b0.length := by omega
  refine .bind (Q := fun _ s => s.1 = bs ++ b0.drop k ∧ At n (fun s => (TcpTx S s ∧ s.txWr = s.txLimit) ∧
      (RxCore A s ∧ bs <+: s.queue) ∧ s.rxRd = p) s.2) (.withPrefix (fun buf hbuf => ?_)
    fun s h _ _ => ⟨h.2.1.1, ⟨h.2.2.1.1, h.2.2.2.2.trans h.2.2.2.1.symm⟩, h.2.1.2⟩) fun _ => ?_
  · refine .pre (P := fun s : List U8 × Chip => buf = b0 ∧ At n _ s.2 ∧ s.1.length = bs.length) (.fact fun hb =>
      .exc (.post (.mapErr (hs_readRx hn hst p bs fun s h i hi => ?_)) fun _ s h => ?_)
        fun s h _ => ⟨h.1.1, ⟨h.2.1.1, h.2.2.2.trans h.2.2.1.symm⟩, h.1.2⟩) ?_
    · rw [← h.2.2.1]
      exact peekRx_queue h.2.1.1.size.dvd h.2.1.2 i hi
    · exact ⟨by rw [h.2, hb], h.1.1, h.1.2.1, h.1.2.2.1⟩
    · rintro s ⟨h1, h2, h3⟩
      refine ⟨h2, h3, ?_⟩
      rw [h1, List.length_take, hbs, show buf = b0 from h2]; omega
  have hG : StableS (fun s => TcpTx S s ∧ s.txWr = s.txLimit) :=
    (stable_tcpTx S).and (fun s a h => by rw [act_txWr, act_txLimit]; exact h)
  refine .bind (.exc (.onSnd' (bs ++ b0.drop k) (.mapErr (hs_setRxRd hn hG ?_ A bs p _)))
    fun s h hr => ⟨h.2.1.1, ⟨h.2.2.1.1, hr.trans h.2.2.2.symm⟩, h.2.1.2⟩) fun _ => ?_
  · rintro s a x (rfl | rfl) ⟨h1, h2⟩
    all_goals exact ⟨⟨h1.tcp, ⟨h1.base.size, h1.base.fits⟩, h1.out⟩, h2⟩
  rw [← hbs]
  have hG' : StableS (fun s => (TcpTx S s ∧ s.txWr = s.txLimit) ∧ s.rxRdReg = p + BitVec.ofNat 16 bs.length ∧
      bs.length ≤ 16384) :=
    hG.and (StableS.and (fun s a h => by rw [act_rxRdReg]; exact h) (StableS.const _))
  -- an unchanged pointer means that no data was taken
  have hz : p + BitVec.ofNat 16 bs.length = p → bs.length ≤ 16384 → bs = [] := by
    intro h4 h5
    have := congrArg BitVec.toNat h4
    simp only [BitVec.toNat_add, BitVec.toNat_ofNat] at this
    have := p.isLt
    exact List.length_eq_zero_iff.mp (by omega)
  refine .bind (.exc (.onSnd' _ (.mapErr (.pre (hs_recv hn hG' ?_ A bs p) fun c h => ?_))) fun s h hr => ?_) fun _ => ?_
  · rintro s r ⟨⟨h1, h2⟩, h3⟩
    exact ⟨⟨⟨h1.tcp, ⟨h1.base.size, h1.base.fits⟩, h1.out⟩, h2⟩, h3⟩
  · refine ⟨⟨⟨h.1.1, h.2, ?_⟩, h.1.2⟩, h.2⟩
    have h1 := h.1.2.1.2.length_le
    rw [queue_length] at h1
    have h2 := h.1.2.1.1.fits
    have h3 := h.1.2.1.1.size.le
    omega
  · rcases h.2 with h | h
    · exact ⟨h.1.1.1.1, ⟨h.1.2.1.1, hr.trans h.1.2.2.symm⟩, h.1.1.1.2⟩
    · have := hz (h.1.2.1.symm.trans hr) h.1.2.2
      subst this
      refine ⟨h.1.1.1, ?_, h.1.1.2⟩
      have := h.2
      rwa [List.append_nil] at this
  have hI : StableS (fun s => TcpIdle S (A ++ bs) s ∧ s.rxRdReg = p + BitVec.ofNat 16 bs.length ∧ bs.length ≤ 16384) :=
    (stable_tcpIdle _ _).and (StableS.and (fun s a h => by rw [act_rxRdReg]; exact h) (StableS.const _))
  refine .bind (.exc (.onSnd' _ (.mapErr (.pre (hs_clearIr hn hI _
    (fun s i h => ⟨tcpIdle_ir i h.1, h.2⟩)) fun c h => ⟨⟨h.1.1.1, h.2, h.1.1.2⟩, h.1.2⟩))) fun s h hr => ?_)
    fun _ => .pure fun s h => ⟨bs, rfl, by omega, h.1, h.2.1, fun _ => by omega⟩
  have := hz (h.2.2.1.symm.trans hr) h.2.2.2
  subst this
  have := h.2.1
  rwa [List.append_nil] at this

end W5500.Spec
