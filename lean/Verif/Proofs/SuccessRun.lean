import Verif.Proofs.Success
/-! # Receiving, and TCP, without errors -/

namespace W5500.Spec
open W5500 socketn Sock
variable {E : Type} {sched : Nat → List (Nat × Act)} {faults : Nat → Option (E × Nat)}

/-- Kept by the environment, and by everything the driver does to an open socket. -/
structure Firm (sched : Nat → List (Nat × Act)) (n : Nat) (P : Sock → Prop) : Prop where
  stays : Stays sched n P
  reg : ∀ s a x, P s → a ≠ 0x00 → (a = 0x01 → x = 0x20 ∨ x = 0x40) → P (s.pokeReg a x)
  tx : ∀ s a x, P s → P (s.pokeTx a x)

theorem pokeReg_sr (s : Sock) {a : U16} {x : U8} (h : a = 0x01 → x = 0x20 ∨ x = 0x40) : (s.pokeReg a x).sr = s.sr := by
  unfold Sock.pokeReg
  split
  · rcases h ‹_› with rfl | rfl <;> rfl
  · repeat' split
    all_goals rfl

theorem stays_sr {n : Nat} {p : U8 → Prop} (hs : StatusIn sched n p) : Stays sched n (fun s => p s.sr) := by
  intro k a ha s h
  by_cases hx : ∃ x, a = .status x
  · obtain ⟨x, rfl⟩ := hx
    exact hs k x ha
  · show p (s.act a).sr
    rw [act_sr' fun x e => hx ⟨x, e⟩]
    exact h

theorem firm_sr {n : Nat} {p : U8 → Prop} (hs : StatusIn sched n p) : Firm sched n (fun s => p s.sr) :=
  ⟨stays_sr hs, fun s a x h _ h1 => by rw [pokeReg_sr s h1]; exact h, fun _ _ _ h => h⟩

theorem firm_steady {n : Nat} (hs : StatusIn sched n (· = 0x22)) (hl : Lossless sched n) (K : List Packet) :
    Firm sched n (Steady K) :=
  ⟨steady_stays hs hl K, fun _ _ _ h h0 h1 => h.pokeReg h0 h1, fun _ a x h => h.pokeTx a x⟩

namespace Firm
variable {n : Nat} {P : Sock → Prop} (hP : Firm sched n P) (hf : ∀ i, faults i = none) (hn : n < 8) {ε : Type} {f : E → ε}
  {R : ε → Chip → Prop}
include hP hf

theorem read1 (b : U8) (a : U16) :
    HoareE (At n P) (M.mapErr f ((Chip.dev sched faults).bus.read1 b a)) (fun _ => At n P) R :=
  .sure (hP.stays.ticks.read1 _ _) (.read1 (faultless_chip hf) _ _)

theorem read2 (b : U8) (a : U16) :
    HoareE (At n P) (M.mapErr f ((Chip.dev sched faults).bus.read2 b a)) (fun _ => At n P) R :=
  .sure (hP.stays.ticks.read2 _ _) (.read2 (faultless_chip hf) _ _)

theorem readBuf (b : U8) (a : U16) (d : List U8) :
    HoareE (At n P) (M.mapErr f ((Chip.dev sched faults).bus.readBuf b a d)) (fun _ => At n P) R :=
  .sure (hP.stays.ticks.readBuf _ _ _) (.readBuf (faultless_chip hf) _ _ _)

include hn in
theorem write1 (a : U16) (x : U8) (h0 : a ≠ 0x00) (h1 : a = 0x01 → x = 0x20 ∨ x = 0x40) :
    HoareE (At n P) (M.mapErr f ((Chip.dev sched faults).bus.write (sockOf n).register a [x])) (fun _ => At n P) R := by
  refine .sure (hP.stays.writeReg hn a [x] fun i hi s h => ?_) (.write (faultless_chip hf) _ _ _)
  have : i = 0 := Nat.lt_one_iff.mp hi
  subst this
  rw [BitVec.add_zero]
  exact hP.reg _ _ _ h h0 h1

include hn in
theorem write2 (a : U16) (p : U16) (h : ∀ i, i < 2 → a + BitVec.ofNat 16 i ≠ 0x00 ∧ a + BitVec.ofNat 16 i ≠ 0x01) :
    HoareE (At n P) (M.mapErr f ((Chip.dev sched faults).bus.write (sockOf n).register a (toBeBytes p))) (fun _ => At n P) R := by
  refine .sure (hP.stays.writeReg hn a _ fun i hi s hs => ?_) (.write (faultless_chip hf) _ _ _)
  exact hP.reg _ _ _ hs (h i hi).1 fun e => absurd e (h i hi).2

include hn in
theorem writeTx (a : U16) (d : List U8) :
    HoareE (At n P) (M.mapErr f ((Chip.dev sched faults).bus.write (sockOf n).txBuffer a d)) (fun _ => At n P) R :=
  .sure (hP.stays.writeTx hn _ _ fun s a x h => hP.tx s a x h) (.write (faultless_chip hf) _ _ _)

theorem waitSendOk (fuel : Nat) :
    HoareE (At n P) (M.mapErr f (RawDevice.waitSendOk (Chip.dev sched faults).bus (sockOf n) fuel)) (fun _ => At n P) R := by
  refine .sure (T := fun _ => True) ?_ (noerr_waitSendOk (faultless_chip hf) _ _)
  induction fuel with
  | zero => exact .outOfFuel fun _ _ => trivial
  | succ k ih =>
    unfold RawDevice.waitSendOk Socket.hasInterrupt
    refine .bind (Q := fun _ => At n P) (.bind (Q := fun _ => At n P) (.exc (hP.stays.ticks.read1 _ _) fun _ _ => trivial)
      fun y => .pure fun _ h => h) fun b => ?_
    exact .ite (fun _ => .pure fun _ h => h) fun _ => ih

theorem receiveSize (fuel : Nat) :
    HoareE (At n P) (M.mapErr f ((sockOf n).getReceiveSize (Chip.dev sched faults).bus fuel)) (fun _ => At n P) R := by
  have hB := faultless_chip (sched := sched) hf
  refine .sure (T := fun _ => True) ?_ ?_
  · induction fuel with
    | zero => exact .outOfFuel fun _ _ => trivial
    | succ k ih =>
      unfold Socket.getReceiveSize
      refine .bind (.exc (hP.stays.ticks.read2 _ _) fun _ _ => trivial) fun v =>
        .bind (.exc (hP.stays.ticks.read2 _ _) fun _ _ => trivial) fun w => ?_
      exact .ite (fun _ => .pure fun _ h => h) fun _ => ih
  · induction fuel with
    | zero => exact .outOfFuel
    | succ k ih =>
      unfold Socket.getReceiveSize
      refine .bind (.read2 hB _ _) fun v => .bind (.read2 hB _ _) fun w => ?_
      split
      · exact .pure _
      · exact ih

/-- The transfer of received bytes to the caller's buffer. -/
theorem readPrefix (k : Nat) (b : U8) (a : U16) {R : ε → List U8 × Chip → Prop} :
    HoareE (fun s : List U8 × Chip => At n P s.2) (M.withPrefix k (M.mapErr f ((Chip.dev sched faults).bus.readSlice b a)))
      (fun _ s => At n P s.2) R := by
  have hB := faultless_chip (sched := sched) hf
  constructor
  rintro ⟨buf, c⟩ hc
  have h1 := (hP.stays.ticks.readBuf (faults := faults) b a (buf.take k)).run c hc
  have h2 := hB.1 c b a (buf.take k)
  rw [withPrefix_apply]
  split
  · rw [M.mapErr_def]
    unfold Bus.readSlice
    unfold Bus.readBuf at h1
    dsimp only
    generalize (Chip.dev sched faults).bus.readFrame c b a (buf.take k) = r at h1 h2
    obtain ⟨_ | _ | _ | _, d, c'⟩ := r
    · exact h1
    · exact (h2 _ rfl).elim
    · trivial
    · trivial
  · trivial

end Firm

theorem _root_.W5500.HoareE.onSnd2 {S σ ε α : Type} {P : σ → Prop} {m : M σ ε α} {Q : α → σ → Prop} {R : ε → σ → Prop}
    (h : HoareE P m Q R) :
    HoareE (fun s : S × σ => P s.2) (M.onSnd m) (fun a s => Q a s.2) (fun e s => R e s.2) := by
  constructor
  intro s hs
  have := h.run s.2 hs
  rw [M.onSnd_apply]
  generalize m s.2 = r at this
  obtain ⟨_ | _ | _ | _, t⟩ := r
  · exact this
  · exact this
  · trivial
  · trivial

section tcp
variable {n : Nat} {P : Sock → Prop} (hP : Firm sched n P) (hn : n < 8) (hf : ∀ i, faults i = none)
  (hsr : ∀ s, P s → s.sr = 0x17)
include hP hn hf hsr

theorem firm_connected {R : TcpSocketError E → Chip → Prop} :
    HoareE (At n P) (TcpSocket.socketIsConnected (Chip.dev sched faults).bus ⟨sockOf n⟩) (fun b c => b = true ∧ At n P c) R := by
  unfold TcpSocket.socketIsConnected Socket.getStatus
  refine .bind (.sure (hP.stays.status hn) (.read1 (faultless_chip hf) _ _)) fun x => .pure fun c h => ⟨?_, h.1⟩
  rw [h.2, hsr _ h.1]
  rfl

/-- TCP `send`. -/
theorem firm_tcpSend (fuel : Nat) (data : List U8) :
    HoareE (At n P) (TcpSocket.socketSend (Chip.dev sched faults).bus fuel ⟨sockOf n⟩ data) (fun _ => At n P)
      (fun _ _ => False) := by
  unfold TcpSocket.socketSend
  refine .bind (firm_connected hP hn hf hsr) fun b => .fact fun hb => ?_
  rw [hb]
  unfold Socket.getTxFreeSize Socket.getTxWritePointer Socket.setTxWritePointer Socket.command Socket.resetInterrupt
  refine .ite (fun h => nomatch h) fun _ => .bind (hP.read2 hf _ _) fun v => ?_
  dsimp only
  have H : ∀ data : List U8, HoareE (At n P) (do
      let writePointer ← M.mapErr (TcpSocketError.other (E := E)) ((Chip.dev sched faults).bus.read2 (sockOf n).register TX_DATA_WRITE_POINTER)
      M.mapErr .other ((Chip.dev sched faults).bus.write (sockOf n).txBuffer writePointer data)
      M.mapErr .other ((Chip.dev sched faults).bus.write (sockOf n).register TX_DATA_WRITE_POINTER
        (toBeBytes (writePointer + BitVec.ofNat 16 data.length)))
      M.mapErr .other ((Chip.dev sched faults).bus.write (sockOf n).register COMMAND [Command.send.toU8])
      M.mapErr .other (RawDevice.waitSendOk (Chip.dev sched faults).bus (sockOf n) fuel)
      M.mapErr .other ((Chip.dev sched faults).bus.write (sockOf n).register INTERRUPT [Interrupt.sendOk.toU8])
      pure data.length) (fun _ => At n P) (fun _ _ => False) := by
    intro data
    refine .bind (hP.read2 hf _ _) fun p => .bind (hP.writeTx hf hn _ _) fun _ => .bind (hP.write2 hf hn _ _ ?_) fun _ =>
      .bind (hP.write1 hf hn _ _ (by decide) fun _ => .inl rfl) fun _ => .bind (hP.waitSendOk hf _) fun _ =>
      .bind (hP.write1 hf hn _ _ (by decide) nofun) fun _ => .pure fun _ h => h
    decide
  split
  · exact H _
  · unfold M.sliceTo
    split
    · exact H _
    · exact ⟨fun _ _ => trivial⟩

/-- TCP `receive`. -/
theorem firm_tcpReceive (fuel : Nat) :
    HoareE (fun s : List U8 × Chip => At n P s.2) (TcpSocket.socketReceive (Chip.dev sched faults).bus fuel ⟨sockOf n⟩)
      (fun _ s => At n P s.2) (fun _ _ => False) := by
  unfold TcpSocket.socketReceive
  refine .bind (HoareE.onSnd2 (R := fun _ _ => False) (firm_connected hP hn hf hsr)) fun b => .fact fun hb => ?_
  rw [hb]
  unfold Socket.hasInterrupt Socket.getRxReadPointer Socket.setRxReadPointer Socket.command Socket.resetInterrupt
  have hB := faultless_chip (sched := sched) hf
  refine .ite (fun h => nomatch h) fun _ => .bind (HoareE.onSnd2 (R := fun _ _ => False) (Q := fun _ => At n P) (.sure (T := fun _ => True)
    (.bind (.exc (hP.stays.ticks.read1 _ _) fun _ _ => trivial) fun _ => .pure fun _ h => h)
    (.bind (.read1 hB _ _) fun _ => .pure _))) fun y => ?_
  refine .ite (fun _ => .pure fun _ h => h) fun _ => .bind (HoareE.onSnd2 (R := fun _ _ => False) (hP.receiveSize hf fuel)) fun v => ?_
  refine .bind (Q := fun (_ t : List U8 × Chip) => At n P t.2) ⟨fun s h => h⟩ fun s => ?_
  dsimp only
  refine .bind (HoareE.onSnd2 (R := fun _ _ => False) (hP.read2 hf _ _)) fun p => .bind (hP.readPrefix hf _ _ _) fun _ => ?_
  refine .bind (HoareE.onSnd2 (R := fun _ _ => False) (hP.write2 hf hn _ _ (by decide))) fun _ =>
    .bind (HoareE.onSnd2 (R := fun _ _ => False) (hP.write1 hf hn _ _ (by decide) fun _ => .inr rfl)) fun _ =>
    .bind (HoareE.onSnd2 (R := fun _ _ => False) (hP.write1 hf hn _ _ (by decide) nofun)) fun _ => .pure fun _ h => h

end tcp
section udp
variable {n : Nat} {P : Sock → Prop} (hP : Firm sched n P) (hn : n < 8) (hf : ∀ i, faults i = none)
  (hsr : ∀ s, P s → s.sr = 0x22)
include hP hn hf hsr

theorem firm_udpStatus (u : UdpSocket) (hu : u.socket = sockOf n) {R : NbError (UdpSocketError E) → Chip → Prop} :
    HoareE (At n P) (u.checkStatus (Chip.dev sched faults).bus) (fun _ => At n P) R := by
  unfold UdpSocket.checkStatus Socket.getStatus
  rw [hu]
  refine .bind (.sure (hP.stays.status hn) (.read1 (faultless_chip hf) _ _)) fun x => ⟨fun c h => ?_⟩
  obtain ⟨h1, rfl⟩ := h
  rw [hsr _ h1]
  exact h1

/-- UDP `receive`, with a datagram queued and announced, and a buffer that is not empty. -/
theorem firm_udpReceive (u : UdpSocket) (hu : u.socket = sockOf n) (K : List Packet) (A : List U8) (z : Nat) (q : Dgram)
    (qs : List Dgram) (fuel : Nat) (b0 : List U8) (hb : b0 ≠ []) :
    HoareE (fun s : List U8 × Chip => s.1 = b0 ∧ At n P s.2 ∧ At n (fun s => UdpIdle K A z (q :: qs) s ∧ RecvPending s) s.2)
      (u.socketReceive (Chip.dev sched faults).bus fuel) (fun _ s => At n P s.2) (fun _ _ => False) := by
  have hB := faultless_chip (sched := sched) hf
  have hst : StableS (fun s => UdpIdle K A z (q :: qs) s ∧ RecvPending s) :=
    (stable_udpIdle K A z (q :: qs)).and stable_recvPending
  unfold UdpSocket.socketReceive
  refine .bind ((HoareE.onSnd' b0 (((firm_udpStatus hP hn hf hsr u hu (R := fun _ _ => False))).also (hs_checkStatus hn hst u hu))).exc
    fun _ _ h => h.2) fun _ => ?_
  rw [hu]
  unfold Socket.hasInterrupt
  refine .bind (Q := fun y s => y = true ∧ s.1 = b0 ∧ At n P s.2 ∧ At n (fun s => UdpIdle K A z (q :: qs) s ∧ RecvPending s) s.2)
    ((HoareE.onSnd' (R := fun _ _ => False) (Q := fun y c => y = true ∧ At n P c ∧
      At n (fun s => UdpIdle K A z (q :: qs) s ∧ RecvPending s) c) b0 (.sure (T := fun _ => True) (.bind (.exc
        (((hP.stays.ticks.read1 _ _).and (hs_read1 hn hst 0x02))) fun _ _ => trivial) fun x => .pure fun c h => ?_)
      (.bind (.read1 hB _ _) fun _ => .pure _))).conseq (fun _ h => h) (fun _ _ h => ⟨h.2.1, h.1, h.2.2⟩) fun _ _ h => h.2)
    fun y => .fact fun hy => ?_
  · obtain ⟨h1, h2, s0, h0, _, rfl⟩ := h
    exact ⟨decide_eq_true h0.2, h1, h2⟩
  rw [hy]
  refine .ite (fun h => nomatch h) fun _ => ?_
  refine .bind (Q := fun v s => v.toNat ≠ 0 ∧ s.1 = b0 ∧ At n P s.2) ((HoareE.onSnd' (R := fun _ _ => False)
    (Q := fun v c => v.toNat ≠ 0 ∧ At n P c) b0 (((hP.receiveSize hf fuel).also (.mapErr (hs_receiveSize hn hst
      (fun s h => h.1.idle.rx.core.rxFits) fuel))).conseq (fun _ h => h) (fun v c h => ⟨?_, h.1⟩) fun _ _ h => h)).conseq
    (fun _ h => h) (fun _ _ h => ⟨h.2.1, h.1, h.2.2⟩) fun _ _ h => h.2) fun v => .fact fun hv => ?_
  · obtain ⟨_, _, s0, ⟨p1, _⟩, _, rfl⟩ := h
    obtain ⟨more, hq⟩ := p1.queue
    rw [← queue_length, hq.2, List.cons_append, encAll_cons, List.length_append, encode_length (hq.1 q (by simp))]
    omega
  dsimp only
  rw [if_neg hv]
  refine .bind (Q := fun (s t : List U8 × Chip) => s.1 = b0 ∧ At n P t.2) ⟨fun s h => h⟩ fun s => .fact fun hs => ?_
  rw [hs, if_neg (fun e => hb (List.length_eq_zero_iff.mp e))]
  unfold Socket.getRxReadPointer Socket.setRxReadPointer Socket.command Socket.resetInterrupt
  refine .bind (HoareE.onSnd2 (R := fun _ _ => False) (hP.read2 hf _ _)) fun p =>
    .bind (HoareE.onSnd2 (R := fun _ _ => False) (hP.readBuf hf _ _ _)) fun hd => ?_
  split
  · exact ⟨fun _ _ => trivial⟩
  · exact .bind (hP.readPrefix hf _ _ _) fun _ =>
      .bind (HoareE.onSnd2 (R := fun _ _ => False) (hP.write2 hf hn _ _ (by decide))) fun _ =>
      .bind (HoareE.onSnd2 (R := fun _ _ => False) (hP.write1 hf hn _ _ (by decide) fun _ => .inr rfl)) fun _ =>
      .bind (HoareE.onSnd2 (R := fun _ _ => False) (hP.write1 hf hn _ _ (by decide) nofun)) fun _ => .pure fun _ h => h

end udp
end W5500.Spec
