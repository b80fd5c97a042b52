import Verif.Spec.WriteAll
import Verif.Proofs.Disclosure
import Verif.Proofs.SuccessRun
/-! # A TCP send that accepts nothing, and what happens meanwhile -/

namespace W5500.Spec
open W5500 socketn Sock
variable {E ε α : Type} {sched : Nat → List (Nat × Act)} {faults : Nat → Option (E × Nat)}

/-- Facts that survive when a send commits nothing: time may pass, and interrupts may be cleared. Sn_TX_WR and the end of
the committed data are at `p`. -/
structure Resting (sched : Nat → List (Nat × Act)) (n : Nat) (p : U16) (I : Chip → Prop) : Prop where
  ticks : Chip.Ticks sched I
  wr : ∀ c, I c → (c.socks n).txWr = p
  lim : ∀ c, I c → (c.socks n).txLimit = p
  ir : ∀ c i, I c → I (c.setSock n { c.socks n with ir := i })

namespace Resting
variable {n : Nat} {p : U16} {I : Chip → Prop}

theorem same (h : Resting sched n p I) (c : Chip) (hc : I c) (s : Sock) (hs : s = c.socks n) : I (c.setSock n s) := by
  subst hs
  exact h.ir c (c.socks n).ir hc

theorem poke_wr (h : Resting sched n p I) (c : Chip) (hc : I c) (a : U16) (x : U8)
    (ha : a = 0x24 ∧ x = p.extractLsb' 8 8 ∨ a = 0x25 ∧ x = p.extractLsb' 0 8) :
    I (c.setSock n ((c.socks n).pokeReg a x)) := by
  apply h.same c hc
  have hw := h.wr c hc
  generalize c.socks n = s at hw
  have e1 : s.mem 0x24 = p.extractLsb' 8 8 := by
    rw [← hw]
    show _ = (s.mem 0x24 ++ s.mem 0x25 : BitVec (8 + 8)).extractLsb' 8 8
    exact (hi_append _ _).symm
  have e2 : s.mem 0x25 = p.extractLsb' 0 8 := by
    rw [← hw]
    show _ = (s.mem 0x24 ++ s.mem 0x25 : BitVec (8 + 8)).extractLsb' 0 8
    exact (lo_append _ _).symm
  have hm : (fun b => if b = a then x else s.mem b) = s.mem := by
    funext b
    split
    · rename_i hb
      subst hb
      rcases ha with ⟨rfl, rfl⟩ | ⟨rfl, rfl⟩
      · exact e1.symm
      · exact e2.symm
    · rfl
  have : s.pokeReg a x = { s with mem := fun b => if b = a then x else s.mem b } := by
    rcases ha with ⟨rfl, _⟩ | ⟨rfl, _⟩ <;> rfl
  rw [this, hm]

theorem poke_send (h : Resting sched n p I) (c : Chip) (hc : I c) : I (c.setSock n ((c.socks n).pokeReg 0x01 0x20)) := by
  apply h.same c hc
  show ({ c.socks n with txLimit := (c.socks n).txWr } : Sock) = c.socks n
  rw [h.wr c hc, ← h.lim c hc]

theorem wait (h : Resting sched n p I) (fuel : Nat) :
    Hoare I (RawDevice.waitSendOk (Chip.dev sched faults).bus (sockOf n) fuel) (fun _ => I) I := by
  induction fuel with
  | zero => exact .outOfFuel fun _ h => h
  | succ k ih =>
    unfold RawDevice.waitSendOk Socket.hasInterrupt
    refine .bind (Q := fun _ => I) (.bind (h.ticks.read1 _ _) fun _ => .pure fun _ h => h) fun b => ?_
    exact .ite (fun _ => .pure fun _ h => h) fun _ => ih

end Resting

/-- A send accepts as much as the free size it has read; if that is nothing, what it does afterwards leaves the socket at
rest. -/
theorem send_inv {n : Nat} (hn : n < 8) {fuel : Nat} {data : List U8} {c c' : Chip} {k : Nat}
    (h : TcpSocket.socketSend (Chip.dev sched faults).bus fuel ⟨sockOf n⟩ data c = (.ok k, c')) :
    ∃ x c1 v c2, (Chip.dev sched faults).bus.read1 (sockOf n).register STATUS c = (.ok x, c1) ∧
      (Chip.dev sched faults).bus.read2 (sockOf n).register TX_FREE_SIZE c1 = (.ok v, c2) ∧ k = min data.length v.toNat ∧
      (k = 0 → ∀ p I, Resting sched n p I → I c2 → I c') := by
  unfold TcpSocket.socketSend TcpSocket.socketIsConnected Socket.getStatus Socket.getTxFreeSize Socket.getTxWritePointer at h
  obtain ⟨b, c1, h1, h⟩ := M.bind_eq_ok.mp h
  obtain ⟨x, _, h1, h1'⟩ := M.bind_eq_ok.mp h1
  rw [M.mapErr_eq_ok] at h1
  cases h1'
  split at h
  · cases h
  obtain ⟨v, c2, h2, h⟩ := M.bind_eq_ok.mp h
  rw [M.mapErr_eq_ok] at h2
  have tail : ∀ wd : List U8, wd.length = min data.length v.toNat → (do
      let writePointer ← M.mapErr (TcpSocketError.other (E := E))
        ((Chip.dev sched faults).bus.read2 (sockOf n).register TX_DATA_WRITE_POINTER)
      M.mapErr TcpSocketError.other ((Chip.dev sched faults).bus.write (sockOf n).txBuffer writePointer wd)
      M.mapErr TcpSocketError.other (Socket.setTxWritePointer (Chip.dev sched faults).bus (sockOf n)
            (writePointer + BitVec.ofNat 16 wd.length))
      M.mapErr TcpSocketError.other (Socket.command (Chip.dev sched faults).bus (sockOf n) Command.send)
      M.mapErr TcpSocketError.other (RawDevice.waitSendOk (Chip.dev sched faults).bus (sockOf n) fuel)
      M.mapErr TcpSocketError.other (Socket.resetInterrupt (Chip.dev sched faults).bus (sockOf n) Interrupt.sendOk)
      pure wd.length) c2 = (.ok k, c') → k = min data.length v.toNat ∧
      (k = 0 → ∀ p I, Resting sched n p I → I c2 → I c') := by
    intro wd hwl h
    obtain ⟨w, c3, h3, h⟩ := M.bind_eq_ok.mp h
    obtain ⟨_, c4, h4, h⟩ := M.bind_eq_ok.mp h
    obtain ⟨_, c5, h5, h⟩ := M.bind_eq_ok.mp h
    obtain ⟨_, c6, h6, h⟩ := M.bind_eq_ok.mp h
    obtain ⟨_, c7, h7, h⟩ := M.bind_eq_ok.mp h
    obtain ⟨_, c8, h8, h⟩ := M.bind_eq_ok.mp h
    rw [M.mapErr_eq_ok] at h3 h4 h5 h6 h7 h8
    have hw : wd.length = k ∧ c8 = c' := by
      simp only [pure, M.pure, Prod.mk.injEq, Res.ok.injEq] at h
      exact h
    obtain ⟨hw, rfl⟩ := hw
    refine ⟨by omega, fun hk p I hI i2 => ?_⟩
    have hwd := List.length_eq_zero_iff.mp (hw.trans hk)
    subst hwd
    have i3 := (hI.ticks.read2 (faults := faults) _ _).ok i2 h3
    have hwp : w = p := by
      have := (hs_readMem (sched := sched) (faults := faults) (P := fun s => s.txWr = p) hn (fun s a h => (act_txWr s a).trans h) _
        (.inl rfl)).ok (s := c2) (hI.wr c2 i2) h3
      exact this.2.trans this.1
    subst hwp
    have i4 := (hI.ticks.write (faults := faults) _ _ [] (fun i hi => nomatch hi)).ok i3 h4
    have i5 := (hI.ticks.write (faults := faults) _ _ _ (fun i hi c hc => by
      rw [Chip.poke_reg hn]
      have : i = 0 ∨ i = 1 := by
        have : i < 2 := hi
        omega
      rcases this with rfl | rfl
      · exact hI.poke_wr c hc _ _ (.inl ⟨rfl, by simp [toBeBytes]⟩)
      · exact hI.poke_wr c hc _ _ (.inr ⟨rfl, by simp [toBeBytes]⟩))).ok i4 h5
    have i6 := (hI.ticks.write (faults := faults) _ _ _ (fun i hi c hc => by
      rw [Chip.poke_reg hn]
      have : i = 0 := by
        have : i < 1 := hi
        omega
      subst this
      exact hI.poke_send c hc)).ok i5 h6
    have i7 := (hI.wait (faults := faults) fuel).ok i6 h7
    exact (hI.ticks.write (faults := faults) _ _ _ (fun i hi c hc => by
      rw [Chip.poke_reg hn]
      have : i = 0 := by
        have : i < 1 := hi
        omega
      subst this
      exact hI.ir c _ hc)).ok i7 h8
  suffices H : k = min data.length v.toNat ∧ (k = 0 → ∀ p I, Resting sched n p I → I c2 → I c') from
    ⟨x, _, v, c2, h1, h2, H⟩
  dsimp only at h
  split at h
  · exact tail data (by omega) h
  · unfold M.sliceTo at h
    rw [if_pos (by omega)] at h
    exact tail _ (by rw [List.length_take]; omega) h

/-- A send that accepts nothing of a non-empty buffer has read a free size of zero. -/
theorem zero_send {n : Nat} (hn : n < 8) {fuel : Nat} {data : List U8} (hd : data ≠ []) {c c' : Chip}
    (h : TcpSocket.socketSend (Chip.dev sched faults).bus fuel ⟨sockOf n⟩ data c = (.ok 0, c')) :
    ∃ x c1 c2, (Chip.dev sched faults).bus.read1 (sockOf n).register STATUS c = (.ok x, c1) ∧
      (Chip.dev sched faults).bus.read2 (sockOf n).register TX_FREE_SIZE c1 = (.ok 0, c2) ∧
      ∀ p I, Resting sched n p I → I c2 → I c' := by
  obtain ⟨x, c1, v, c2, h1, h2, h3, h4⟩ := send_inv hn h
  have hdl : data.length ≠ 0 := fun h => hd (List.length_eq_zero_iff.mp h)
  have hv : v = 0 := BitVec.eq_of_toNat_eq (show v.toNat = 0 by omega)
  subst hv
  exact ⟨x, c1, c2, h1, h2, h4 rfl⟩

/-! ## A full TX buffer drains -/

/-- A TCP socket at rest: the committed data ends at `p`. -/
structure AtRest (p : U16) (s : Sock) : Prop where
  tcp : s.proto = 1
  base : TxBase s
  wr : s.txWr = p
  lim : s.txLimit = p

theorem stable_atRest (p : U16) : StableS (AtRest p) := fun s a h =>
  ⟨(act_proto s a).trans h.tcp, (act_txBase h.base a).1, (act_txWr s a).trans h.wr, (act_txLimit s a).trans h.lim⟩

/-- Some byte can be acknowledged, or was. -/
def Moving (s : Sock) : Prop := s.used < s.txSize ∨ (s.txRd - s.una).toNat ≠ 0

/-- There is room in the TX buffer. -/
def HasRoom (s : Sock) : Prop := s.used < s.txSize

theorem act_roomy {s : Sock} (h : TxBase s) (a : Act) (hr : HasRoom s) : HasRoom (s.act a) := by
  unfold HasRoom at *
  rw [act_txSize]
  exact Nat.lt_of_le_of_lt (act_txBase h a).2 hr

theorem transmit_gap {s : Sock} (hp : s.proto = 1) (h : TxBase s) (j : Nat) :
    ((s.act (.transmit j)).txRd - (s.act (.transmit j)).una).toNat =
      (s.txRd - s.una).toNat + min j (s.txLimit - s.txRd).toNat := by
  have hf := h.fits
  have hz := h.size.le
  simp only [act, if_pos hp]
  exact add_sub_toNat (by omega)

theorem ack_used {s : Sock} (hp : s.proto = 1) (h : TxBase s) (j : Nat) :
    (s.act (.ack j)).used = s.used - min j (s.txRd - s.una).toNat := by
  have hu := h.used_eq
  simp only [act, if_pos hp]
  show (s.txLimit - (s.una + _)).toNat = _
  have : min j (s.txRd - s.una).toNat ≤ (s.txLimit - s.una).toNat := by
    show _ ≤ s.used
    omega
  exact sub_add_toNat this

theorem act_moving {p : U16} {s : Sock} (a : Act) (h : AtRest p s) (hm : Moving s) : Moving (s.act a) := by
  rcases hm with hm | hm
  · exact .inl (act_roomy h.base a hm)
  have same : (s.act a).txRd = s.txRd → (s.act a).una = s.una → Moving (s.act a) := by
    intro h1 h2
    right
    rw [h1, h2]
    exact hm
  have hpush : ∀ bs, s.act a = s.push bs → Moving (s.act a) := by
    intro bs e
    apply same
    · rw [e, push_txRd]
    · rw [e, push_una]
  cases a with
  | arrive bs => exact hpush bs (by simp only [act, if_pos h.tcp])
  | datagram d =>
    exact same (by simp only [act, if_neg (show ¬ (s.proto = 2 ∧ d.Wf) by rw [h.tcp]; omega)])
        (by simp only [act, if_neg (show ¬ (s.proto = 2 ∧ d.Wf) by rw [h.tcp]; omega)])
  | frame f =>
    exact same (by simp only [act, if_neg (show ¬ (s.proto = 4 ∧ f.length + 2 < 65536) by rw [h.tcp]; omega)])
        (by simp only [act, if_neg (show ¬ (s.proto = 4 ∧ f.length + 2 < 65536) by rw [h.tcp]; omega)])
  | transmit j =>
    right
    rw [transmit_gap h.tcp h.base]
    omega
  | ack j =>
    by_cases hj : j = 0
    · subst hj
      apply same
      · simp only [act, if_pos h.tcp]
      · simp only [act, if_pos h.tcp, Nat.zero_min]
        simp
    · left
      rw [ack_used h.tcp h.base, act_txSize]
      have := h.base.used_le
      have := h.base.used_eq
      omega
  | emit d =>
    exact same (by simp only [act, if_neg (show ¬ ((s.proto = 2 ∨ s.proto = 4) ∧ s.txRd ≠ s.txLimit) by rw [h.tcp]; omega)])
        (by simp only [act, if_neg (show ¬ ((s.proto = 2 ∨ s.proto = 4) ∧ s.txRd ≠ s.txLimit) by rw [h.tcp]; omega)])
  | raise b => exact same rfl rfl
  | status x => exact same rfl rfl

theorem transmit_moves {p : U16} {s : Sock} (h : AtRest p s) {j : Nat} (hj : 1 ≤ j) : Moving (s.act (.transmit j)) := by
  by_cases hr : s.used < s.txSize
  · exact .inl (act_roomy h.base _ hr)
  · right
    rw [transmit_gap h.tcp h.base]
    have := h.base.used_eq
    have := h.base.size.pos
    omega

theorem ack_makes_room {p : U16} {s : Sock} (h : AtRest p s) (hm : Moving s) {j : Nat} (hj : 1 ≤ j) : HasRoom (s.act (.ack j)) := by
  unfold HasRoom
  rw [ack_used h.tcp h.base, act_txSize]
  have := h.base.used_eq
  have := h.base.used_le
  rcases hm with hm | hm <;> omega

/-- After time `k'`, there is room. -/
def RoomAt (n : Nat) (p : U16) (k k' t : Nat) (c : Chip) : Prop :=
  (AtRest p (c.socks n) ∧ (k < c.clock → Moving (c.socks n)) ∧ (k' < c.clock → HasRoom (c.socks n))) ∧ t ≤ c.clock

theorem resting_room {n : Nat} {p : U16} {k k' j j' : Nat} (hk : k < k') (hj : 1 ≤ j) (hj' : 1 ≤ j')
    (h1 : (n, .transmit j) ∈ sched k) (h2 : (n, .ack j') ∈ sched k') (t : Nat) : Resting sched n p (RoomAt n p k k' t) where
  ticks := by
    have := Chip.ticks_events (P := AtRest p) (D := Moving) (D' := HasRoom) (fun _ s a _ h => stable_atRest p s a h)
      (fun _ s a _ h => act_moving a h) (fun _ s a _ h hr => act_roomy h.base a hr) hk h1 h2
      (fun s h => transmit_moves h hj) (fun s h hm => ack_makes_room h hm hj')
    exact ⟨fun c hc => ⟨this.tick c hc.1, Nat.le_succ_of_le hc.2⟩, fun c k hc => hc⟩
  wr c h := h.1.1.wr
  lim c h := h.1.1.lim
  ir c i h := by
    obtain ⟨⟨h1, h2, h3⟩, h4⟩ := h
    refine ⟨⟨?_, ?_, ?_⟩, h4⟩
    · rw [Chip.setSock_self]
      exact ⟨h1.tcp, ⟨h1.base.size, h1.base.fits⟩, h1.wr, h1.lim⟩
    · rw [Chip.setSock_self]
      exact h2
    · rw [Chip.setSock_self]
      exact h3

/-- At least `m` bytes are free. -/
theorem resting_free {n : Nat} (p : U16) (m : Nat) :
    Resting sched n p (At n fun s => AtRest p s ∧ s.used + m ≤ s.txSize) where
  ticks := by
    have hs : StableS (fun s => AtRest p s ∧ s.used + m ≤ s.txSize) := fun s a h =>
      ⟨stable_atRest p s a h.1, by rw [act_txSize]; have := (act_txBase h.1.base a).2; omega⟩
    exact ⟨fun c hc => hs.at n _ _ (Chip.tick_evolves _ _) hc, fun c k hc => hc⟩
  wr c h := h.1.wr
  lim c h := h.1.lim
  ir c i h := by
    obtain ⟨h1, h2⟩ := h
    show AtRest p ((c.setSock n _).socks n) ∧ _
    rw [Chip.setSock_self]
    exact ⟨⟨h1.tcp, ⟨h1.base.size, h1.base.fits⟩, h1.wr, h1.lim⟩, h2⟩

/-- A send that accepts nothing takes time, while the full buffer drains. -/
theorem zero_send_drains {n : Nat} (hn : n < 8) {p : U16} {k k' j j' : Nat} (hk : k < k') (hj : 1 ≤ j) (hj' : 1 ≤ j')
    (h1 : (n, .transmit j) ∈ sched k) (h2 : (n, .ack j') ∈ sched k') {fuel : Nat} {data : List U8} (hd : data ≠ []) {c c' : Chip}
    (h : TcpSocket.socketSend (Chip.dev sched faults).bus fuel ⟨sockOf n⟩ data c = (.ok 0, c')) (t : Nat)
    (hc : RoomAt n p k k' t c) : RoomAt n p k k' (t + 1) c' := by
  obtain ⟨x, c1, c2, r1, r2, hkeep⟩ := zero_send hn hd h
  have hR := resting_room (p := p) hk hj hj' h1 h2
  refine hkeep p _ (hR (t + 1)) ?_
  have i1 := ((hR t).ticks.read1 (faults := faults) _ _).ok hc r1
  have t1 := (Chip.read1_clock (sched := sched) (faults := faults) _ _ c.clock).ok rfl r1
  have ht := hc.2
  exact ((hR (t + 1)).ticks.read2 (faults := faults) _ _).ok ⟨i1.1, by omega⟩ r2

/-- If there is room and a send accepts nothing, the free size passed a multiple of 256 while it was read. -/
theorem zero_send_torn {n : Nat} (hn : n < 8) {p : U16} {fuel : Nat} {data : List U8} (hd : data ≠ []) {c c' : Chip}
    (h : TcpSocket.socketSend (Chip.dev sched faults).bus fuel ⟨sockOf n⟩ data c = (.ok 0, c'))
    (hc : AtRest p (c.socks n)) (hr : HasRoom (c.socks n)) : AtRest p (c'.socks n) ∧ (c'.socks n).used + 256 ≤ (c'.socks n).txSize := by
  obtain ⟨x, c1, c2, r1, r2, hkeep⟩ := zero_send hn hd h
  refine hkeep p _ (resting_free p 256) ?_
  have hs : StableS (fun s => AtRest p s ∧ HasRoom s) := fun s a h => ⟨stable_atRest p s a h.1, act_roomy h.1.base a h.2⟩
  have i1 := (hs_read1' (sched := sched) (faults := faults) hn hs _).ok (s := c) ⟨hc, hr⟩ r1
  obtain ⟨i2, s1, s2, p1, p2, e1, e2, hv⟩ := (hs_read2 (sched := sched) (faults := faults) hn hs _).ok (s := c1) i1 r2
  have e3 : StableS (fun s => AtRest p s ∧ s.used + 256 ≤ s.txSize) := fun s a h =>
      ⟨stable_atRest p s a h.1, by rw [act_txSize]; have := (act_txBase h.1.base a).2; omega⟩
  refine e3.evolves e2 ⟨p2.1, ?_⟩
  have f2 := fsr_eq p2.1.base (p2.1.wr.trans p2.1.lim.symm)
  have hlo : s2.fsr.extractLsb' 0 8 = 0 := by
    have h3 : s1.peekReg TX_FREE_SIZE ++ s2.peekReg (TX_FREE_SIZE + 1) = (0 : U16) := hv.symm
    have h4 := lo_append (s1.peekReg TX_FREE_SIZE) (s2.peekReg (TX_FREE_SIZE + 1))
    rw [h3] at h4
    exact h4.symm.trans (by decide)
  have h5 := congrArg BitVec.toNat hlo
  rw [BitVec.extractLsb'_toNat] at h5
  have h6 : s2.used < s2.txSize := p2.2
  simp only [Nat.shiftRight_zero] at h5
  have h7 : s2.fsr.toNat % 256 = 0 := h5
  omega

/-! ## A full TX buffer that does not drain -/

/-- The TX buffer is full. -/
def FullAt (n : Nat) (p : U16) : Chip → Prop := At n fun s => AtRest p s ∧ s.used = s.txSize

theorem act_full {p : U16} {s : Sock} (a : Act) (h : AtRest p s) (hf : s.used = s.txSize) (ha : ∀ j, a ≠ .ack j) :
    (s.act a).used = (s.act a).txSize := by
  rw [act_txSize, ← hf]
  have same : (s.act a).una = s.una → (s.act a).used = s.used := by
    intro h1
    unfold used
    rw [act_txLimit, h1]
  apply same
  cases a with
  | ack j => exact absurd rfl (ha j)
  | emit d => simp only [act, if_neg (show ¬ ((s.proto = 2 ∨ s.proto = 4) ∧ s.txRd ≠ s.txLimit) by rw [h.tcp]; omega)]
  | arrive bs => simp only [act, if_pos h.tcp, push_una]
  | transmit k => simp only [act, if_pos h.tcp]
  | datagram d => simp only [act, if_neg (show ¬ (s.proto = 2 ∧ d.Wf) by rw [h.tcp]; omega)]
  | frame f => simp only [act, if_neg (show ¬ (s.proto = 4 ∧ f.length + 2 < 65536) by rw [h.tcp]; omega)]
  | raise b => rfl
  | status x => rfl

theorem resting_full {n : Nat} (p : U16) (hno : ∀ k j, (n, .ack j) ∉ sched k) : Resting sched n p (FullAt n p) where
  ticks := by
    refine ⟨fun c hc => ?_, fun c k hc => hc⟩
    exact (Chip.foldl_event (P := fun s => AtRest p s ∧ s.used = s.txSize) (D := fun _ => True) (a := .raise 0) (sched c.clock)
      (fun s b hb h => ⟨stable_atRest p s b h.1, act_full b h.1 h.2 fun j e => hno _ j (e ▸ hb)⟩) (fun _ _ _ _ _ => trivial)
      (fun _ _ => trivial) c hc).1
  wr c h := h.1.wr
  lim c h := h.1.lim
  ir c i h := by
    obtain ⟨h1, h2⟩ := h
    show AtRest p ((c.setSock n _).socks n) ∧ _
    rw [Chip.setSock_self]
    exact ⟨⟨h1.tcp, ⟨h1.base.size, h1.base.fits⟩, h1.wr, h1.lim⟩, h2⟩

/-- A full buffer of which nothing is acknowledged takes nothing. -/
theorem full_send {n : Nat} (hn : n < 8) (p : U16) (hno : ∀ k j, (n, .ack j) ∉ sched k) {fuel : Nat} {data : List U8}
    {c c' : Chip} {k : Nat} (hc : FullAt n p c)
    (h : TcpSocket.socketSend (Chip.dev sched faults).bus fuel ⟨sockOf n⟩ data c = (.ok k, c')) : k = 0 ∧ FullAt n p c' := by
  obtain ⟨x, c1, v, c2, h1, h2, h3, h4⟩ := send_inv hn h
  have hR := resting_full p hno
  have i1 := (hR.ticks.read1 (faults := faults) _ _).ok hc h1
  obtain ⟨hv, i2⟩ := (hR.ticks.read2_value (faults := faults) (b := (sockOf n).register) (v := fun _ => 0) TX_FREE_SIZE fun c hc i hi => by
    rw [Chip.peek_reg hn]
    have hf := fsr_eq hc.1.base (hc.1.wr.trans hc.1.lim.symm)
    rw [hc.2, Nat.sub_self] at hf
    have hf : (c.socks n).fsr = 0 := BitVec.eq_of_toNat_eq hf
    rcases (by omega : i = 0 ∨ i = 1) with rfl | rfl
    · show (c.socks n).fsr.extractLsb' 8 8 = 0
      rw [hf]; rfl
    · show (c.socks n).fsr.extractLsb' 0 8 = 0
      rw [hf]; rfl).ok i1 h2
  have hv0 : v.toNat = 0 := by rw [hv]; rfl
  have hk : k = 0 := by omega
  exact ⟨hk, h4 hk p _ hR i2⟩

end W5500.Spec
