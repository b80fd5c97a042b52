import Verif.Spec.Irq
import Verif.Proofs.ChipMoves
import Verif.Proofs.RawHistory
import Verif.Proofs.RawSplit
import Verif.Proofs.Wakeup
import Verif.Proofs.PktFailures
/-! # Interrupts announce what waits -/

namespace W5500.Spec
open W5500 socketn Sock
variable {E : Type} {sched : Nat → List (Nat × Act)} {faults : Nat → Option (E × Nat)}

/-- The write frames of a MACRAW device that reads and writes frames. -/
inductive RawFrames (s : Socket) : U8 → U16 → List U8 → Prop where
  | rd (x y : U8) : RawFrames s s.register 0x28 [x, y]
  | recv : RawFrames s s.register 0x01 [0x40]
  | tx (a : U16) (d : List U8) : RawFrames s s.txBuffer a d
  | wr (x y : U8) : RawFrames s s.register 0x24 [x, y]
  | ir : RawFrames s s.register 0x02 [0x10]
  | send : RawFrames s s.register 0x01 [0x20]

/-- Those without RECV. -/
inductive RawSendFrames (s : Socket) : U8 → U16 → List U8 → Prop where
  | tx (a : U16) (d : List U8) : RawSendFrames s s.txBuffer a d
  | wr (x y : U8) : RawSendFrames s s.register 0x24 [x, y]
  | ir : RawSendFrames s s.register 0x02 [0x10]
  | send : RawSendFrames s s.register 0x01 [0x20]

/-- Sn_CR, Sn_IR, Sn_TX_WR, Sn_RX_RD. -/
def rawRegs : List (U16 × Nat) := [(0x01, 1), (0x02, 1), (0x24, 2), (0x28, 2)]

theorem RawFrames.sock {s : Socket} (b : U8) (a : U16) (d : List U8) (h : RawFrames s b a d) : SockFrames s rawRegs b a d := by
  cases h
  case tx => exact .inl rfl
  all_goals exact .inr ⟨rfl, by simp [rawRegs]⟩

theorem RawSendFrames.raw {s : Socket} (b : U8) (a : U16) (d : List U8) (h : RawSendFrames s b a d) : RawFrames s b a d := by
  cases h
  · exact .tx _ _
  · exact .wr _ _
  · exact .ir
  · exact .send

section
variable {W : Type} {B : Bus W E}

theorem moves_rawHead (F : U8 → U16 → List U8 → Prop) (fuel : Nat) (s : Socket) : MovesOn B F id (rawHead B fuel s) := by
  have h := moves_receiveSize (B := B) F s fuel
  unfold rawHead Socket.getRxReadPointer
  moves

theorem moves_rawTail (s : Socket) (bl : Nat) (p : U16) (av ex : Nat) :
    MovesOn B (RawFrames s) (fun x => x.2) (rawTail B s bl p av ex) := by
  unfold rawTail Socket.setRxReadPointer Socket.command
  repeat' first | exact MovesOn.write (RawFrames.rd _ _) | exact MovesOn.write RawFrames.recv | moves

theorem moves_writeFrame (r : RawDevice) (fuel : Nat) (frame : List U8) :
    MovesOn B (RawSendFrames r.rawSocket) id (r.writeFrame B fuel frame) := by
  have h := moves_waitSendOk (B := B) (RawSendFrames r.rawSocket) r.rawSocket fuel
  unfold RawDevice.writeFrame Socket.resetInterrupt
  refine .bind (.write .ir) fun _ => ?_
  refine MovesOn.bindR ?_ (returns_tx_new ..) fun c hc => ?_
  · unfold TxCursor.new Socket.getTxFreeSize Socket.getTxWritePointer
    moves
  refine MovesOn.bindR ?_ (returns_tx_write ..) fun x hx => ?_
  · unfold TxCursor.write
    split
    · exact .pure _
    · refine .bind (.sliceTo _ _) fun d => .bind (.write ?_) fun _ => .pure _
      rw [hc]
      exact .tx _ _
  · refine .bind ?_ fun _ => .bind h fun _ => .pure _
    unfold TxCursor.commit Socket.setTxWritePointer Socket.command
    rw [hx, hc]
    exact .bind (.write (.wr _ _)) fun _ => .write .send
end

/-- Write frames that keep `P` byte by byte. -/
theorem reach_pokes {n : Nat} (hn : n < 8) {P : Sock → Prop} (hP : StableS P) {F : U8 → U16 → List U8 → Prop}
    (hF : ∀ b a d, F b a d → (b = (sockOf n).txBuffer ∧ ∀ s a x, P s → P (s.pokeTx a x)) ∨
      (b = (sockOf n).register ∧ ∀ i (hi : i < d.length) s, P s → P (s.pokeReg (a + BitVec.ofNat 16 i) d[i])))
    {c c' : Chip} (h : Reach (Chip.dev sched faults).bus F c c') (hc : P (c.socks n)) : P (c'.socks n) := by
  refine h.induct (I := At n P) (fun w b a d hi => (hP.at n) _ _ (Chip.readFrame_evolves w b a d) hi) ?_ hc
  intro w b a d hf hw
  have := (Chip.hoare_write (sched := sched) (faults := faults) (I := fun _ => At n P) b a d
    (fun _ _ _ => hP.at n) (fun i hi c hc => by
      rcases hF _ _ _ hf with ⟨rfl, h⟩ | ⟨rfl, h⟩
      · rw [Chip.poke_tx hn]
        show P _
        rw [Chip.setSock_self]
        exact h _ _ _ hc
      · rw [Chip.poke_reg hn]
        show P _
        rw [Chip.setSock_self]
        exact h i hi _ hc)).run w hw
  unfold Bus.write at this
  generalize (Chip.dev sched faults).bus.writeFrame w b a d = r at this
  obtain ⟨_ | _ | _ | _, c'⟩ := r
  · exact this
  all_goals exact this.elim fun _ h => h.2

theorem queue_length (s : Sock) : s.queue.length = s.rsr.toNat := by
  unfold queue ring
  rw [List.length_map, List.length_range]

theorem noticed_iff {s : Sock} : s.Noticed ↔ (s.rsr ≠ 0 → s.Announced) := by
  have h : s.queue ≠ [] ↔ s.rsr ≠ 0 := by
    rw [ne_eq, ← List.length_eq_zero_iff, queue_length]
    exact not_congr ⟨fun h => BitVec.eq_of_toNat_eq h, fun h => by rw [h]; rfl⟩
  unfold Noticed
  rw [h]

theorem announced_or {s : Sock} (x : U8) (h : s.Announced) : (s.ir ||| x).getLsbD 2 = true := by
  rw [BitVec.getLsbD_or, show s.ir.getLsbD 2 = true from h, Bool.true_or]

theorem push_announced (s : Sock) (bs : List U8) : (s.push bs).Announced ∨ s.push bs = s := by
  unfold push
  split
  · left
    show (s.ir ||| 4).getLsbD 2 = true
    rw [BitVec.getLsbD_or]
    simp
  · exact .inr rfl

theorem stable_noticed : StableS Noticed := by
  intro s a h
  have hp : ∀ bs, (s.push bs).Noticed := fun bs => by
    rcases push_announced s bs with e | e
    · exact fun _ => e
    · rw [e]; exact h
  rw [noticed_iff] at h ⊢
  cases a with
  | arrive bs =>
    dsimp only [act]
    split
    · exact noticed_iff.mp (hp _)
    · exact h
  | datagram d =>
    dsimp only [act]
    split
    · exact noticed_iff.mp (hp _)
    · exact h
  | frame f =>
    dsimp only [act]
    split
    · exact noticed_iff.mp (hp _)
    · exact h
  | transmit k => dsimp only [act]; split <;> exact h
  | ack k => dsimp only [act]; split <;> exact h
  | emit b => dsimp only [act]; split <;> exact h
  | raise bits => exact fun hq => announced_or _ (h hq)
  | status x => exact h

theorem stable_announced : StableS Announced := by
  intro s a h
  have hp : ∀ bs, (s.push bs).Announced := fun bs => by
    rcases push_announced s bs with e | e
    · exact e
    · rw [e]; exact h
  unfold Announced at h hp ⊢
  cases a with
  | arrive bs =>
    dsimp only [act]
    split
    · exact hp _
    · exact h
  | datagram d =>
    dsimp only [act]
    split
    · exact hp _
    · exact h
  | frame f =>
    dsimp only [act]
    split
    · exact hp _
    · exact h
  | transmit k => dsimp only [act]; split <;> exact h
  | ack k => dsimp only [act]; split <;> exact h
  | emit b => dsimp only [act]; split <;> exact h
  | raise bits => exact announced_or _ h
  | status x => exact h

theorem ir_send {x : U8} (h : x.getLsbD 2 = true) : (x &&& ~~~(0x10 : U8)).getLsbD 2 = true := by
  revert x
  decide +kernel

/-- Reading and writing frames does not clear RECV. -/
theorem reach_announced {c c' : Chip} (h : Reach (Chip.dev sched faults).bus (RawFrames (sockOf 0)) c c')
    (hc : (c.socks 0).Announced) : (c'.socks 0).Announced := by
  refine reach_pokes (by decide) stable_announced (fun b a d hf => ?_) h hc
  cases hf with
  | tx a d => exact .inl ⟨rfl, fun _ _ _ h => h⟩
  | rd x y => exact .inr ⟨rfl, fun i hi s h => by rcases index_two (by rfl) hi with rfl | rfl <;> exact h⟩
  | wr x y => exact .inr ⟨rfl, fun i hi s h => by rcases index_two (by rfl) hi with rfl | rfl <;> exact h⟩
  | recv => exact .inr ⟨rfl, fun i hi s h => by obtain rfl := index_one (by rfl) hi; exact h⟩
  | send => exact .inr ⟨rfl, fun i hi s h => by obtain rfl := index_one (by rfl) hi; exact h⟩
  | ir => exact .inr ⟨rfl, fun i hi s h => by obtain rfl := index_one (by rfl) hi; exact ir_send h⟩

/-- Writing frames leaves what waits announced. -/
theorem reach_noticed {c c' : Chip} (h : Reach (Chip.dev sched faults).bus (RawSendFrames (sockOf 0)) c c')
    (hc : (c.socks 0).Noticed) : (c'.socks 0).Noticed := by
  refine reach_pokes (by decide) stable_noticed (fun b a d hf => ?_) h hc
  cases hf with
  | tx a d => exact .inl ⟨rfl, fun _ _ _ h => h⟩
  | wr x y => exact .inr ⟨rfl, fun i hi s h => by rcases index_two (by rfl) hi with rfl | rfl <;> exact h⟩
  | send => exact .inr ⟨rfl, fun i hi s h => by obtain rfl := index_one (by rfl) hi; exact h⟩
  | ir => exact .inr ⟨rfl, fun i hi s h => by obtain rfl := index_one (by rfl) hi; exact fun hq => ir_send (h hq)⟩

/-- A received size other than 0 was announced. -/
theorem noticed_receiveSize (fuel : Nat) :
    Hoare (At 0 Noticed) (Socket.getReceiveSize (Chip.dev sched faults).bus (sockOf 0) fuel)
      (fun v => At 0 fun s => s.Noticed ∧ (v ≠ 0 → s.Announced)) (At 0 Noticed) := by
  induction fuel with
  | zero => exact .outOfFuel (fun _ h => h)
  | succ k ih =>
    unfold Socket.getReceiveSize
    refine .bind (hs_read2 (by decide) stable_noticed _) fun v => ?_
    have hP' : StableS (fun s => s.Noticed ∧ (v ≠ 0 → s.Announced)) := fun s a h =>
      ⟨stable_noticed s a h.1, fun hv => stable_announced s a (h.2 hv)⟩
    refine .pre (P := At 0 fun s => s.Noticed ∧ (v ≠ 0 → s.Announced)) ?_ ?_
    · refine .bind (Q := fun _ => At 0 fun s => s.Noticed ∧ (v ≠ 0 → s.Announced))
        ((hs_read2 (by decide) hP' _).conseq (fun _ h => h) (fun _ _ h => h.1) fun _ h => h.1) fun w => ?_
      exact .ite (fun _ => .pure fun _ h => h) fun _ => ih.pre fun _ h => h.1
    · rintro c ⟨h, s1, s2, p1, p2, e1, e2, hv⟩
      refine ⟨h, fun hne => ?_⟩
      rw [noticed_iff] at p1 p2
      by_cases z1 : s1.rsr = 0
      · by_cases z2 : s2.rsr = 0
        · refine absurd ?_ hne
          rw [hv]
          show s1.rsr.extractLsb' 8 8 ++ s2.rsr.extractLsb' 0 8 = (0 : U16)
          rw [z1, z2]
          rfl
        · exact stable_announced.evolves e2 (p2 z2)
      · exact stable_announced.evolves (e1.trans e2) (p1 z1)

theorem noticed_rawHead (fuel : Nat) :
    Hoare (At 0 Noticed) (rawHead (Chip.dev sched faults).bus fuel (sockOf 0))
      (fun o => At 0 fun s => s.Noticed ∧ (o ≠ none → s.Announced)) (At 0 Noticed) := by
  unfold rawHead Socket.getRxReadPointer
  refine .bind (noticed_receiveSize fuel) fun v => ?_
  have hP : StableS (fun s => s.Noticed ∧ (v ≠ 0 → s.Announced)) := fun s a h =>
    ⟨stable_noticed s a h.1, fun hv => stable_announced s a (h.2 hv)⟩
  refine .bind (Q := fun _ => At 0 fun s => s.Noticed ∧ (v ≠ 0 → s.Announced))
    ((hs_read2 (by decide) hP _).conseq (fun _ h => h) (fun _ _ h => h.1) fun _ h => h.1) fun p => ?_
  refine .ite (fun _ => .pure fun _ h => ⟨h.1, fun e => absurd rfl e⟩) fun hv => ?_
  refine .bind (Q := fun _ => At 0 fun s => s.Noticed ∧ (v ≠ 0 → s.Announced)) ?_ fun d => ?_
  · constructor
    intro c hc
    have := (hP.at 0) _ _ (Chip.readFrame_evolves (sched := sched) (faults := faults) c (sockOf 0).rxBuffer p (List.replicate (min v.toNat 2) 0)) hc
    unfold Bus.readBuf
    generalize (Chip.dev sched faults).bus.readFrame c (sockOf 0).rxBuffer p (List.replicate (min v.toNat 2) 0) = r at this
    obtain ⟨_ | _ | _ | _, d, c'⟩ := r
    · exact this
    all_goals exact this.1
  · split
    · exact .pure fun _ h => ⟨h.1, fun _ => h.2 hv⟩
    · exact .panic fun _ h => h.1

/-- `read_frame` leaves what waits announced, whatever its outcome. -/
theorem noticed_readFrame (fuel : Nat) {x : Res E Nat} {buf buf' : List U8} {c c' : Chip}
    (h : RawDevice.readFrame (Chip.dev sched faults).bus fuel ⟨sockOf 0⟩ (buf, c) = (x, (buf', c')))
    (hc : (c.socks 0).Noticed) : (c'.socks 0).Noticed := by
  rw [readFrame_split] at h
  have H : Hoare (fun s : List U8 × Chip => At 0 Noticed s.2)
      (M.onSnd (rawHead (Chip.dev sched faults).bus fuel (sockOf 0)) >>= fun x => match x with
        | none => pure 0
        | some (p, av, ex) => rawTail (Chip.dev sched faults).bus (sockOf 0) buf.length p av ex)
      (fun _ s => At 0 Noticed s.2) (fun s => At 0 Noticed s.2) := by
    refine .bind (Q := fun o (s : List U8 × Chip) => At 0 (fun s => s.Noticed ∧ (o ≠ none → s.Announced)) s.2)
      (.onSnd fun b => noticed_rawHead fuel) fun o => ?_
    rcases o with _ | ⟨p, av, ex⟩
    · exact .pure fun _ h => h.1
    · constructor
      rintro ⟨b, c⟩ hc
      have hr := (moves_rawTail (B := (Chip.dev sched faults).bus) (sockOf 0) buf.length p av ex).run (b, c)
      have := reach_announced hr (hc.2 nofun)
      dsimp only at this ⊢
      generalize rawTail (Chip.dev sched faults).bus (sockOf 0) buf.length p av ex (b, c) = r at this
      obtain ⟨_ | _ | _ | _, s⟩ := r <;> exact fun _ => this
  exact H.any h hc

theorem noticed_writeFrame (fuel : Nat) {x : Res E Nat} {frame : List U8} {c c' : Chip}
    (h : RawDevice.writeFrame (Chip.dev sched faults).bus fuel ⟨sockOf 0⟩ frame c = (x, c'))
    (hc : (c.socks 0).Noticed) : (c'.socks 0).Noticed := by
  have hr := (moves_writeFrame (B := (Chip.dev sched faults).bus) ⟨sockOf 0⟩ fuel frame).run c
  rw [h] at hr
  exact reach_noticed hr hc

/-- The interrupt masks: SIMR, and Sn_IMR of socket 0. -/
def Masks (m : U8) (c : Chip) : Prop := c.cmem 0x18 = 1 ∧ (c.socks 0).mem 0x2C = m

theorem reach_masks {m : U8} {F : U8 → U16 → List U8 → Prop} (hF : ∀ b a d, F b a d → SockFrames (sockOf 0) rawRegs b a d) {c c' : Chip}
    (h : Reach (Chip.dev sched faults).bus F c c') (hc : Masks m c) : Masks m c' := by
  have h := h.mono hF
  refine ⟨(congrFun (reach_cmem (by decide) h) _).trans hc.1, ?_⟩
  exact (reach_regs (by decide) (fun a => a = 0x2C) (by decide) (by decide) h 0x2C rfl).trans hc.2

theorem stable_masks (m : U8) : Chip.Stable (Masks m) := fun _ _ e h =>
  ⟨(congrFun e.cmem _).trans h.1, stable_mem (fun f => f 0x2C = m) |>.evolves (e.socks 0) h.2⟩

theorem moves_readFrame {W : Type} {B : Bus W E} (s : Socket) (fuel : Nat) (buf : List U8) (w : W) :
    Reach B (RawFrames s) w (RawDevice.readFrame B fuel ⟨s⟩ (buf, w)).2.2 := by
  rw [readFrame_split]
  refine MovesOn.run (get := fun x => x.2) (.bind (.onSnd (get := id) (moves_rawHead _ fuel s)) fun o => ?_) (buf, w)
  split
  · exact .pure _
  · exact moves_rawTail ..

/-- A write elsewhere. -/
theorem masks_write {m : U8} {block : U8} {addr : U16} {data : List U8} (hf : Foreign 0 block addr data)
    (hs : (block.setWidth 5 : BitVec 5) = 0 → ∀ i, i < data.length → addr + BitVec.ofNat 16 i ≠ 0x18) {c : Chip} (hc : Masks m c) :
    Masks m ((Chip.dev sched faults).bus.writeFrame c block addr data).2 := by
  have := (Chip.hoare_write (sched := sched) (faults := faults) (I := fun _ => Masks m) block addr data
    (fun _ _ _ => stable_masks m) (fun i hi c hc => by
      refine ⟨?_, by rw [foreign_poke hf i hi c]; exact hc.2⟩
      unfold Foreign at hf
      unfold Chip.poke
      split at hf
      · rename_i hb
        rw [if_pos hb]
        unfold Chip.pokeCommon
        split
        · exact hc.1
        · rw [if_neg fun hr => by have := hf i hi hr.1; rw [this] at hr; exact nomatch hr.2]
          show (if _ then _ else _) = _
          rw [if_neg (hs hb i hi).symm]
          exact hc.1
      · rename_i hb
        rw [if_neg hb]
        split
        · exact hc.1
        · split <;> exact hc.1)).run c hc
  unfold Bus.write at this
  generalize (Chip.dev sched faults).bus.writeFrame c block addr data = r at this
  obtain ⟨_ | _ | _ | _, c'⟩ := r
  · exact this
  all_goals exact this.elim fun _ h => h.2

end W5500.Spec
