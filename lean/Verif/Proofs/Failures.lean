import Verif.Spec.Failures
import Verif.Proofs.TcpHistory
import Verif.Proofs.ChipMoves
/-! # TCP with failing transfers: the invariant -/

namespace W5500.Spec
open W5500 socketn Sock
variable {E ε α : Type} {sched : Nat → List (Nat × Act)} {faults : Nat → Option (E × Nat)}

namespace Sock

/-- The socket as if SEND was given with Sn_TX_WR = `p`. -/
def upTo (p : U16) (s : Sock) : Sock := { s with txLimit := p }

/-- Transmitted bytes followed by those up to `p` are `A`; the end of the last SEND is in between. -/
structure Held (A : List U8) (p : U16) (s : Sock) : Prop where
  tx : TcpTx A (s.upTo p)
  between : (s.txLimit - s.txRd).toNat + (p - s.txLimit).toNat = (p - s.txRd).toNat

/-- What the environment does to the socket it could do to that one. -/
theorem act_upTo {A : List U8} {p : U16} {s : Sock} (h : Held A p s) (a : Act) :
    ∃ a', (s.act a).upTo p = (s.upTo p).act a' := by
  have htcp : (s.upTo p).proto = 1 := h.tx.tcp
  have hp : s.proto = 1 := htcp
  have hpush : ∀ (c : Prop) [Decidable c] (bs : List U8),
      (if c then s.push bs else s).upTo p = (if c then (s.upTo p).push bs else s.upTo p) := by
    intro c _ bs
    split
    · unfold Sock.push upTo
      by_cases hf : s.rsr.toNat + bs.length ≤ s.rxSize
      · rw [if_pos hf, if_pos (by exact hf)]; rfl
      · rw [if_neg hf, if_neg (by exact hf)]
    · rfl
  cases a with
  | arrive bs => exact ⟨.arrive bs, hpush _ _⟩
  | datagram d => exact ⟨.datagram d, hpush _ _⟩
  | frame f => exact ⟨.frame f, hpush _ _⟩
  | transmit k =>
    refine ⟨.transmit (min k (s.txLimit - s.txRd).toNat), ?_⟩
    have hb := h.between
    simp only [act, if_pos hp, if_pos htcp]
    have : min (min k (s.txLimit - s.txRd).toNat) ((s.upTo p).txLimit - (s.upTo p).txRd).toNat =
        min k (s.txLimit - s.txRd).toNat := by
      show min _ (p - s.txRd).toNat = _
      omega
    rw [this]
    rfl
  | ack k =>
    refine ⟨.ack k, ?_⟩
    simp only [act, if_pos hp, if_pos htcp]
    rfl
  | emit d =>
    refine ⟨.emit d, ?_⟩
    simp only [act]
    rw [if_neg (by rw [hp]; omega), if_neg (by rw [htcp]; omega)]
  | raise b =>
    refine ⟨.raise b, ?_⟩
    simp only [act, if_pos hp, if_pos htcp]
    rfl
  | status x => exact ⟨.status x, rfl⟩

theorem stable_held (A : List U8) (p : U16) : StableS (Held A p) := by
  intro s a h
  obtain ⟨a', ha⟩ := act_upTo h a
  refine ⟨by rw [ha]; exact act_tcpTx h.tx a', ?_⟩
  have hp : s.proto = 1 := h.tx.tcp
  have hb := h.between
  rw [act_txLimit]
  have hsame : (s.act a).txRd = s.txRd → (s.txLimit - (s.act a).txRd).toNat + (p - s.txLimit).toNat =
      (p - (s.act a).txRd).toNat := fun e => by rw [e]; exact hb
  cases a with
  | transmit k =>
    simp only [act, if_pos hp]
    have h1 : (s.txLimit - (s.txRd + BitVec.ofNat 16 (min k (s.txLimit - s.txRd).toNat))).toNat =
      (s.txLimit - s.txRd).toNat - min k (s.txLimit - s.txRd).toNat := sub_add_toNat (Nat.min_le_right _ _)
    have h2 : (p - (s.txRd + BitVec.ofNat 16 (min k (s.txLimit - s.txRd).toNat))).toNat =
      (p - s.txRd).toNat - min k (s.txLimit - s.txRd).toNat := sub_add_toNat (by omega)
    omega
  | arrive bs => exact hsame (by simp only [act]; split <;> simp [push_txRd])
  | datagram d => exact hsame (by simp only [act]; split <;> simp [push_txRd])
  | frame f => exact hsame (by simp only [act]; split <;> simp [push_txRd])
  | ack k => exact hsame (by simp only [act]; split <;> rfl)
  | emit d => exact hsame (by simp only [act]; rw [if_neg (by rw [hp]; omega)])
  | raise b => exact hsame rfl
  | status x => exact hsame rfl

/-- The bytes up to `p` that are not acknowledged do not become more. -/
theorem held_used {A : List U8} {p : U16} {s : Sock} (h : Held A p s) (a : Act) :
    ((s.act a).upTo p).used ≤ (s.upTo p).used := by
  obtain ⟨a', ha⟩ := act_upTo h a
  rw [ha]
  exact (act_txBase h.tx.base a').2

theorem held_used' {A : List U8} {p : U16} {s s' : Sock} (h : Held A p s) (e : s.Evolves s') :
    (s'.upTo p).used ≤ (s.upTo p).used := by
  have : StableS (fun t => Held A p t ∧ (t.upTo p).used ≤ (s.upTo p).used) :=
    fun t a ⟨h1, h2⟩ => ⟨stable_held A p t a h1, Nat.le_trans (held_used h1 a) h2⟩
  exact (this.evolves e ⟨h, Nat.le_refl _⟩).2

theorem held_fsr {A : List U8} {p : U16} {s : Sock} (h : Held A p s) (hp : s.txWr = p) :
    s.fsr.toNat = s.txSize - (s.upTo p).used :=
  fsr_eq h.tx.base hp

theorem held_out {A : List U8} {p : U16} {s : Sock} (h : Held A p s) :
    s.stream ++ s.pending <+: A ∧ (s.txLimit = p → s.stream ++ s.pending = A) := by
  have ho : s.stream ++ (s.upTo p).pending = A := h.tx.out
  have hb := h.between
  have hz : s.txSize ∣ 65536 := h.tx.base.size.dvd
  have : (s.upTo p).pending = s.pending ++ ring s.txMem s.txSize s.txLimit (p - s.txLimit).toNat := by
    show ring s.txMem s.txSize s.txRd (p - s.txRd).toNat = _
    rw [← hb, ring_add hz, add_sub_ofNat]
    rfl
  refine ⟨⟨ring s.txMem s.txSize s.txLimit (p - s.txLimit).toNat, ?_⟩, fun he => ?_⟩
  · rw [List.append_assoc, ← this]; exact ho
  · rw [← ho, this, ← he, BitVec.sub_self]
    simp [ring_zero]

theorem held_of_idle {S A : List U8} {s : Sock} (h : TcpIdle S A s) : Held S s.txWr s := by
  have : s.upTo s.txWr = s := by unfold upTo; rw [h.idle]
  refine ⟨by rw [this]; exact h.tx, ?_⟩
  rw [h.idle, BitVec.sub_self]
  rfl

theorem held_ir {A : List U8} {p : U16} {s : Sock} (i : U8) (h : Held A p s) : Held A p { s with ir := i } :=
  ⟨⟨h.tx.tcp, ⟨h.tx.base.size, h.tx.base.fits⟩, h.tx.out⟩, h.between⟩

theorem held_mem {A : List U8} {p : U16} {s : Sock} {a : U16} (x : U8) (ha : a ∈ [(0x24 : U16), 0x25, 0x28, 0x29])
    (h : Held A p s) : Held A p { s with mem := fun b => if b = a then x else s.mem b } := by
  simp only [List.mem_cons, List.not_mem_nil, or_false] at ha
  rcases ha with rfl | rfl | rfl | rfl <;>
    exact ⟨⟨h.tx.tcp, ⟨h.tx.base.size, h.tx.base.fits⟩, h.tx.out⟩, h.between⟩

/-- Bytes behind those accounted for are accounted for as well. -/
theorem held_extend {A data : List U8} {p : U16} {s : Sock} (h : Held A p s) (hf : (s.upTo p).used + data.length ≤ s.txSize)
    (hr : ring s.txMem s.txSize p data.length = data) : Held (A ++ data) (p + BitVec.ofNat 16 data.length) s := by
  have hb := h.between
  have hz := h.tx.base.size.le
  have hz' : s.txSize ≤ 16384 := hz
  have hu : (s.upTo p).used = (s.txRd - s.una).toNat + (p - s.txRd).toNat := h.tx.base.used_eq
  have e1 : (p + BitVec.ofNat 16 data.length - s.txRd).toNat = (p - s.txRd).toNat + data.length := add_sub_toNat (by omega)
  have e2 : (p + BitVec.ofNat 16 data.length - s.txLimit).toNat = (p - s.txLimit).toNat + data.length :=
    add_sub_toNat (by omega)
  refine ⟨⟨h.tx.tcp, ⟨h.tx.base.size, ?_⟩, ?_⟩, by omega⟩
  · show (s.txRd - s.una).toNat + (p + BitVec.ofNat 16 data.length - s.txRd).toNat ≤ s.txSize
    omega
  · show s.stream ++ ring s.txMem s.txSize s.txRd (p + BitVec.ofNat 16 data.length - s.txRd).toNat = _
    rw [e1, ring_add (show s.txSize ∣ 65536 from h.tx.base.size.dvd), add_sub_ofNat, ← List.append_assoc, hr]
    congr 1
    exact h.tx.out

/-- SEND. -/
theorem held_send {A : List U8} {p : U16} {s : Sock} (h : Held A p s) (hp : s.txWr = p) :
    Held A p (s.command 0x20) ∧ (s.command 0x20).txLimit = p := by
  have e : s.command 0x20 = s.upTo p := by rw [← hp]; rfl
  rw [e]
  refine ⟨⟨h.tx, ?_⟩, rfl⟩
  show (p - s.txRd).toNat + (p - p).toNat = _
  rw [BitVec.sub_self]
  rfl

end Sock

/-! ## Whole transfers -/

/-- A two-byte register write on a bus that does not tear it. -/
theorem hs_write2_whole (hw : Whole faults) {n : Nat} (hn : n < 8) {P P1 Q : Sock → Prop} (hP : StableS P) (hP1 : StableS P1)
    (a : U16) (v : U16) (h1 : ∀ s, P s → P1 (s.pokeReg a (v.extractLsb' 8 8)))
    (h2 : ∀ s, P1 s → Q (s.pokeReg (a + 1) (v.extractLsb' 0 8))) :
    Hoare (At n P) ((Chip.dev sched faults).bus.write (sockOf n).register a (toBeBytes v))
      (fun _ => At n Q) (At n fun s => P s ∨ Q s) := by
  constructor
  intro c hc
  have hall := (hs_write2 (sched := sched) (faults := fun _ => (none : Option (E × Nat))) hn hP hP1 a v h1 h2).run
    c hc
  have hok := (hs_write2 (sched := sched) (faults := faults) hn hP hP1 a v h1 h2).run c hc
  cases hf : faults c.txn with
  | none =>
    unfold Bus.write at hok ⊢
    simp only [ByteDev.bus, Chip.dev, hf] at hok ⊢
    exact hok
  | some ek =>
    obtain ⟨e, k⟩ := ek
    have hk := hw _ _ _ hf
    unfold Bus.write at hok hall ⊢
    simp only [ByteDev.bus, Chip.dev, hf] at hok hall ⊢
    by_cases h : k ≤ 3
    · rw [show k - 3 = 0 by omega] at hok ⊢
      exact .inl hc
    · have : (toBeBytes v).take (k - 3) = toBeBytes v := List.take_of_length_le (by simp [toBeBytes]; omega)
      rw [this]
      refine .inr ?_
      exact hall

/-! ## The calls -/

/-- Reading the free size. -/
theorem hs_heldFree {n : Nat} (hn : n < 8) (A : List U8) (p : U16) :
    Hoare (At n fun s => Held A p s ∧ s.txWr = p) ((Chip.dev sched faults).bus.read2 (sockOf n).register 0x20)
      (fun v => At n fun s => Held A p s ∧ s.txWr = p ∧ (s.upTo p).used + v.toNat ≤ s.txSize)
      (At n fun s => Held A p s ∧ s.txWr = p) := by
  have hP : StableS (fun s => Held A p s ∧ s.txWr = p) :=
    (stable_held A p).and fun s a h => by rw [act_txWr]; exact h
  refine (hs_read2 hn hP 0x20).post ?_
  rintro v c ⟨h1, s1, s2, p1, p2, e1, e2, h2⟩
  have hv : v.toNat = s1.fsr.toNat / 256 * 256 + s2.fsr.toNat % 256 := by
    rw [h2]
    exact torn _ _
  have f1 := held_fsr p1.1 p1.2
  have f2 := held_fsr p2.1 p2.2
  have u1 := held_used' p1.1 e1
  have u2 := held_used' p2.1 e2
  have z1 : s2.txSize = s1.txSize := (stable_mem (fun m => 1024 * (m 0x1F).toNat = s1.txSize)).evolves e1 rfl
  have z2 : (c.socks n).txSize = s2.txSize :=
    (stable_mem (fun m => 1024 * (m 0x1F).toNat = s2.txSize)).evolves e2 rfl
  have l0 : ((c.socks n).upTo p).used ≤ (c.socks n).txSize := h1.1.tx.base.used_le
  have l1 : (s1.upTo p).used ≤ s1.txSize := p1.1.tx.base.used_le
  have l2 : (s2.upTo p).used ≤ s2.txSize := p2.1.tx.base.used_le
  exact ⟨h1.1, h1.2, by omega⟩

/-- `socket_send` on a bus that does not tear pointers, however it ends. -/
theorem tcp_sendHeld (hw : Whole faults) {n : Nat} (hn : n < 8) (A : List U8) (p0 : U16) (fuel : Nat) (data : List U8) :
    Hoare (At n fun s => Held A p0 s ∧ s.txWr = p0)
      (TcpSocket.socketSend (Chip.dev sched faults).bus fuel ⟨sockOf n⟩ data)
      (fun k => At n fun s => Held (A ++ data.take k) s.txWr s ∧ s.txLimit = s.txWr)
      (At n fun s => Held A s.txWr s ∨ ∃ k, Held (A ++ data.take k) s.txWr s) := by
  have hP : StableS (fun s => Held A p0 s ∧ s.txWr = p0) :=
    (stable_held A p0).and fun s a h => by rw [act_txWr]; exact h
  have hexc : ∀ c, At n (fun s => Held A p0 s ∧ s.txWr = p0) c →
      At n (fun s => Held A s.txWr s ∨ ∃ k, Held (A ++ data.take k) s.txWr s) c := fun c h => .inl (by
    have h1 := h.1
    rwa [← h.2] at h1)
  unfold TcpSocket.socketSend TcpSocket.socketIsConnected
  refine .bind (Q := fun _ => At n fun s => Held A p0 s ∧ s.txWr = p0) ?_ fun b => ?_
  · refine .bind (.mapErr ((hs_read1' hn hP _).exc hexc)) fun x => .pure (fun _ h => h)
  refine .ite (fun _ => .throw hexc) fun _ => ?_
  refine .bind (.mapErr ((hs_heldFree hn A p0).exc hexc)) fun v => ?_
  dsimp only
  suffices H : ∀ wd, data.take (min data.length v.toNat) = wd → Hoare _ (do
      let writePointer ← M.mapErr TcpSocketError.other
        (Socket.getTxWritePointer (Chip.dev sched faults).bus (sockOf n))
      M.mapErr TcpSocketError.other ((Chip.dev sched faults).bus.write (sockOf n).txBuffer writePointer wd)
      M.mapErr TcpSocketError.other (Socket.setTxWritePointer (Chip.dev sched faults).bus (sockOf n)
            (writePointer + BitVec.ofNat 16 wd.length))
      M.mapErr TcpSocketError.other (Socket.command (Chip.dev sched faults).bus (sockOf n) Command.send)
      M.mapErr TcpSocketError.other (RawDevice.waitSendOk (Chip.dev sched faults).bus (sockOf n) fuel)
      M.mapErr TcpSocketError.other (Socket.resetInterrupt (Chip.dev sched faults).bus (sockOf n) Interrupt.sendOk)
      pure wd.length) _ _ by
    split
    · exact H data (by rw [Nat.min_eq_left (by omega), List.take_length])
    · unfold M.sliceTo
      rw [if_pos (by omega)]
      exact H _ (by rw [Nat.min_eq_right (by omega)])
  intro wd hwd
  have hwl : wd.length = min data.length v.toNat := by rw [← hwd, List.length_take]; omega
  have htk : data.take wd.length = wd := by rw [hwl, hwd]
  have hst : ∀ (T : (U16 → U8) → Prop) (i : Nat), StableS (fun s => Held A p0 s ∧ T s.mem ∧
      (s.upTo p0).used + wd.length ≤ s.txSize ∧ ring s.txMem s.txSize p0 i = wd.take i) := by
    rintro T i s a ⟨h1, h2, h3, h4⟩
    have := held_used h1 a
    exact ⟨stable_held A p0 s a h1, by rw [act_mem]; exact h2, by rw [act_txSize]; omega,
      by rw [act_txMem, act_txSize]; exact h4⟩
  have hwr : ∀ i, StableS (fun s => Held A p0 s ∧ s.txWr = p0 ∧
      (s.upTo p0).used + wd.length ≤ s.txSize ∧ ring s.txMem s.txSize p0 i = wd.take i) :=
    hst (fun m => m 0x24 ++ m (0x24 + 1) = p0)
  refine Hoare.pre (P := At n fun s => Held A p0 s ∧ s.txWr = p0 ∧
      (s.upTo p0).used + wd.length ≤ s.txSize ∧ ring s.txMem s.txSize p0 0 = wd.take 0) ?_ fun c hc => ?_
  rotate_left
  · exact ⟨hc.1, hc.2.1, by have := hc.2.2; omega, rfl⟩
  refine .bind (Q := fun p c => At n (fun s => Held A p0 s ∧ s.txWr = p0 ∧
      (s.upTo p0).used + wd.length ≤ s.txSize ∧ ring s.txMem s.txSize p0 0 = wd.take 0) c ∧ p = p0)
    (.mapErr ((hs_readMem hn (hwr 0) _ (.inl rfl)).conseq (fun _ h => h) ?_
      fun c h => hexc c ⟨h.1, h.2.1⟩)) fun p => ?_
  · rintro p c ⟨h1, h2⟩
    exact ⟨h1, h2.trans h1.2.1⟩
  refine Hoare.fact' fun hp => ?_
  subst hp
  refine .bind (.mapErr ((hs_writeTx (sched := sched) (faults := faults) hn
    (I := fun i s => Held A p s ∧ s.txWr = p ∧ (s.upTo p).used + wd.length ≤ s.txSize ∧
      ring s.txMem s.txSize p i = wd.take i) p wd (fun i _ _ => hwr i) ?_).exc fun c h => ?_)) fun _ => ?_
  · rintro i hi s ⟨h1, h2, h3, h4⟩
    have hb := h1.tx.base
    have hcell : ∀ j, j < (s.upTo p).used → (s.una.toNat + j) % s.txSize ≠ (p + BitVec.ofNat 16 i).toNat % s.txSize :=
      fun j hj => free_cell hb h3 hi j hj
    refine ⟨⟨(frame_tcpTx A).pokeTx (s.upTo p) _ _ h1.tx hcell, h1.between⟩, h2, h3, ?_⟩
    have := ring_poke (s := s) h1.tx.base.size (p := p) (i := i) (x := wd[i]) (by show i < s.txSize; omega)
    show ring (s.pokeTx _ _).txMem s.txSize p (i + 1) = _
    rw [this, h4, List.take_succ_eq_append_getElem hi]
  · obtain ⟨i, _, h1, h2, _⟩ := h
    exact hexc c ⟨h1, h2⟩
  refine .bind (.mapErr ((hs_write2_whole hw hn (hwr wd.length)
    (hst (fun m => m 0x24 = (p + BitVec.ofNat 16 wd.length).extractLsb' 8 8) wd.length) 0x24
    (p + BitVec.ofNat 16 wd.length)
    (Q := fun s => Held (A ++ wd) (p + BitVec.ofNat 16 wd.length) s ∧ s.txWr = p + BitVec.ofNat 16 wd.length)
    (fun s hs => ?_) (fun s hs => ?_)).exc fun c h => ?_)) fun _ => ?_
  · obtain ⟨h1, h2, h3, h4⟩ := hs
    rw [pokeWr_eq s _ (.inl rfl)]
    exact ⟨held_mem _ (by decide) h1, rfl, h3, h4⟩
  · obtain ⟨h1, h2, h3, h4⟩ := hs
    rw [List.take_length] at h4
    have e : (0x24 + 1 : U16) = 0x25 := rfl
    rw [e, pokeWr_eq s _ (.inr rfl)]
    refine ⟨held_mem _ (by decide) (held_extend h1 h3 h4), ?_⟩
    show (s.mem 0x24 ++ (p + BitVec.ofNat 16 wd.length).extractLsb' 0 8 : BitVec (8 + 8)) = _
    rw [h2]
    exact whole _
  · rcases h with h | h
    · exact hexc c ⟨h.1, h.2.1⟩
    · refine .inr ⟨wd.length, ?_⟩
      rw [htk, h.2]
      exact h.1
  have hst2 : StableS (fun s => Held (A ++ wd) (p + BitVec.ofNat 16 wd.length) s ∧ s.txWr = p + BitVec.ofNat 16 wd.length) :=
    (stable_held _ _).and fun s a h => by rw [act_txWr]; exact h
  have hst3 : StableS (fun s => (Held (A ++ wd) (p + BitVec.ofNat 16 wd.length) s ∧ s.txWr = p + BitVec.ofNat 16 wd.length) ∧
      s.txLimit = p + BitVec.ofNat 16 wd.length) :=
    hst2.and fun s a h => by rw [act_txLimit]; exact h
  have hexc2 : ∀ c, At n (fun s => Held (A ++ wd) (p + BitVec.ofNat 16 wd.length) s ∧
      s.txWr = p + BitVec.ofNat 16 wd.length) c →
      At n (fun s => Held A s.txWr s ∨ ∃ k, Held (A ++ data.take k) s.txWr s) c := fun c h =>
    .inr ⟨wd.length, by rw [htk, h.2]; exact h.1⟩
  refine .bind (.mapErr ((hs_write1 (Q := fun s => (Held (A ++ wd) (p + BitVec.ofNat 16 wd.length) s ∧
    s.txWr = p + BitVec.ofNat 16 wd.length) ∧ s.txLimit = p + BitVec.ofNat 16 wd.length) hn hst2 _ _
    (fun s hs => ?_)).exc fun c h => ?_)) fun _ => ?_
  · obtain ⟨h1, h2⟩ := Sock.held_send hs.1 hs.2
    exact ⟨⟨h1, hs.2⟩, h2⟩
  · rcases h with h | h
    · exact hexc2 c h
    · exact hexc2 c h.1
  refine .bind (.mapErr ((hs_waitSendOk hn hst3 fuel).exc fun c h => hexc2 c h.1)) fun _ => ?_
  refine .bind (.mapErr ((hs_clearIr hn hst3 _ (fun s i h => ⟨⟨held_ir i h.1.1, h.1.2⟩, h.2⟩)).exc fun c h => hexc2 c h.1))
    fun _ => .pure fun c hc => ?_
  obtain ⟨⟨h1, h2⟩, h3⟩ := hc
  refine ⟨?_, h3.trans h2.symm⟩
  rw [htk, h2]
  exact h1

/-- The write frames of receiving. -/
inductive RecvFrames (s : Socket) : U8 → U16 → List U8 → Prop where
  | rd (x y : U8) : RecvFrames s s.register 0x28 [x, y]
  | ir (x : U8) : RecvFrames s s.register 0x02 [x]
  | recv : RecvFrames s s.register 0x01 [0x40]

theorem movesRecv_tcpReceive {W : Type} {B : Bus W E} (t : TcpSocket) (fuel : Nat) :
    MovesOn B (RecvFrames t.socket) (fun s => s.2) (t.socketReceive B fuel) := by
  have h1 := moves_receiveSize (B := B) (RecvFrames t.socket) t.socket fuel
  have h2 := moves_isConnected (B := B) (RecvFrames t.socket) t
  unfold TcpSocket.socketReceive Socket.hasInterrupt Socket.getRxReadPointer Socket.setRxReadPointer Socket.command
    Socket.resetInterrupt
  moves
  all_goals first | exact .write (.rd _ _) | exact .write .recv | exact .write (.ir _)

/-- Invariants of receiving. -/
theorem reach_recv {n : Nat} (hn : n < 8) {P : Sock → Prop} (hP : StableS P)
    (hrd : ∀ s a x, a = 0x28 ∨ a = 0x29 → P s → P { s with mem := fun b => if b = a then x else s.mem b })
    (hir : ∀ s i, P s → P { s with ir := i }) (hrecv : ∀ s r, P s → P { s with rxRd := r }) {c c' : Chip}
    (h : Reach (Chip.dev sched faults).bus (RecvFrames (sockOf n)) c c') (hc : P (c.socks n)) : P (c'.socks n) := by
  refine h.induct (I := At n P) (fun w b a d hi => (hP.at n) _ _ (Chip.readFrame_evolves w b a d) hi) ?_ hc
  intro w b a d hf hw
  have := (Chip.hoare_write (sched := sched) (faults := faults) (I := fun _ => At n P) b a d
    (fun _ _ _ => hP.at n) (fun i hi c hc => by
      cases hf with
      | rd x y =>
        rw [Chip.poke_reg hn]
        show P _
        rw [Chip.setSock_self]
        rcases index_two (by rfl) hi with rfl | rfl
        · exact hrd _ _ _ (.inl rfl) hc
        · exact hrd _ _ _ (.inr rfl) hc
      | ir x =>
        rw [Chip.poke_reg hn]
        show P _
        rw [Chip.setSock_self]
        obtain rfl := index_one (by rfl) hi
        exact hir _ _ hc
      | recv =>
        rw [Chip.poke_reg hn]
        show P _
        rw [Chip.setSock_self]
        obtain rfl := index_one (by rfl) hi
        exact hrecv _ _ hc)).run w hw
  unfold Bus.write at this
  generalize (Chip.dev sched faults).bus.writeFrame w b a d = r at this
  obtain ⟨_ | _ | _ | _, c'⟩ := r
  · exact this
  all_goals exact this.elim fun _ h => h.2

/-! ## Histories -/

/-- Everything up to Sn_TX_WR is `A`; with `b`, SEND was given for all of it. -/
def Kept (A : List U8) (b : Bool) (s : Sock) : Prop := Held A s.txWr s ∧ (b = true → s.txLimit = s.txWr)

theorem stable_kept (A : List U8) (b : Bool) : StableS (Kept A b) := by
  rintro s a ⟨h1, h2⟩
  refine ⟨by rw [act_txWr]; exact stable_held A _ s a h1, fun hb => ?_⟩
  rw [act_txWr, act_txLimit]
  exact h2 hb

theorem lastOk_snoc (log : SendLog E) (data : List U8) (r : Res (TcpSocketError E) Nat) :
    lastOk (log ++ [(data, r)]) = true ↔ ∃ k, r = .ok k := by
  unfold lastOk
  rw [List.getLast?_concat]
  cases r <;> simp

theorem tcpReceive_kept {H : Type} {n : Nat} (hn : n < 8) (A : List U8) (b : Bool) (fuel : Nat) (buf : List U8)
    (d : Device Chip H) (h : At n (Kept A b) d.bus) :
    At n (Kept A b) (Device.tcpReceive (Chip.dev sched faults).bus fuel ⟨sockOf n⟩ (buf, d)).2.2.bus := by
  have hm : MovesOn (Chip.dev sched faults).bus (RecvFrames (sockOf n)) (fun s : List U8 × Device Chip H => s.2.bus)
      (Device.tcpReceive (Chip.dev sched faults).bus fuel ⟨sockOf n⟩) :=
    .onSockBus (movesRecv_tcpReceive ⟨sockOf n⟩ fuel)
  refine reach_recv hn (stable_kept A b) ?_ ?_ ?_ (hm.run (buf, d)) h
  · rintro s a x ha ⟨h1, h2⟩
    have e : ({ s with mem := fun b => if b = a then x else s.mem b } : Sock).txWr = s.txWr := by
      rcases ha with rfl | rfl <;> rfl
    refine ⟨?_, fun hb => ?_⟩
    · rw [e]
      exact held_mem _ (by rcases ha with rfl | rfl <;> decide) h1
    · rw [e]; exact h2 hb
  · rintro s i ⟨h1, h2⟩
    exact ⟨held_ir i h1, h2⟩
  · rintro s r ⟨h1, h2⟩
    exact ⟨⟨⟨h1.tx.tcp, ⟨h1.tx.base.size, h1.tx.base.fits⟩, h1.tx.out⟩, h1.between⟩, h2⟩

end W5500.Spec
