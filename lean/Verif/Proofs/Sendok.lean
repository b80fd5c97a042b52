import Verif.Spec.Sendok
import Verif.Proofs.Wakeup
/-! # A TCP send that returned, on a chip that raises SENDOK when the data is transmitted -/

namespace W5500.Spec
open W5500 socketn Sock
variable {E ε α : Type} {sched : Nat → List (Nat × Act)} {faults : Nat → Option (E × Nat)}

namespace Chip

theorem poke_clock (c : Chip) (b : BitVec 5) (a : U16) (x : U8) : (c.poke b a x).clock = c.clock := by
  unfold poke pokeCommon setSock
  repeat' split
  all_goals rfl

theorem writeBytes_clock (l : List U8) (c : Chip) (b : BitVec 5) (a : U16) :
    ((dev sched faults).writeBytes c b a l).clock = c.clock + l.length := by
  induction l generalizing c a with
  | nil => rfl
  | cons x l ih =>
    show ((dev sched faults).writeBytes ((c.tick sched).poke b a x) b (a + 1) l).clock = _
    rw [ih, poke_clock, tick_clock, List.length_cons]
    omega

theorem write_ok (b : U8) (a : U16) (d : List U8) {P : Chip → Prop} {Q : Chip → Prop}
    (h : ∀ c, P c → Q ((dev sched faults).writeBytes { c with txn := c.txn + 1 } (b.setWidth 5) a d)) :
    Hoare P ((dev sched faults).bus.write b a d) (fun _ => Q) (fun _ => True) := by
  constructor
  intro c hc
  unfold Bus.write
  rcases hr : (dev sched faults).bus.writeFrame c b a d with ⟨_ | _ | _ | _, c'⟩
  · simp only [ByteDev.bus] at hr
    split at hr
    · rename_i c1 hc1
      have : c1 = { c with txn := c.txn + 1 } := by simp only [dev, Prod.mk.injEq] at hc1; exact hc1.2.symm
      subst this
      simp only [Prod.mk.injEq, true_and] at hr
      show Q c'
      rw [← hr]
      exact h c hc
    · simp at hr
  · trivial
  · trivial
  · trivial

/-- A successful write takes its time. -/
theorem write_clock (b : U8) (a : U16) (d : List U8) (t : Nat) :
    Hoare (fun c => c.clock = t) ((dev sched faults).bus.write b a d) (fun _ c => c.clock = t + d.length) (fun _ => True) :=
  write_ok b a d fun c hc => by rw [writeBytes_clock]; exact congrArg (· + _) hc

/-- A property kept by time and by the bytes written. -/
theorem Ticks.writeBytes {I : Chip → Prop} (h : Ticks sched I) (b : BitVec 5) (l : List U8) (a : U16) (c : Chip)
    (hp : ∀ i (hi : i < l.length) c, I c → I (c.poke b (a + BitVec.ofNat 16 i) l[i])) (hc : I c) :
    I ((dev sched faults).writeBytes c b a l) := by
  induction l generalizing c a with
  | nil => exact hc
  | cons x l ih =>
    refine ih _ _ (fun i hi s hs => ?_) ?_
    · have := hp (i + 1) (by simpa using hi) s hs
      rwa [BitVec.ofNat_add, BitVec.add_comm (BitVec.ofNat 16 i), ← BitVec.add_assoc] at this
    · have h0 := hp 0 (by simp) _ (h.tick c hc)
      rw [BitVec.add_zero] at h0
      exact h0

theorem Ticks.write {I : Chip → Prop} (h : Ticks sched I) (b : U8) (a : U16) (d : List U8)
    (hp : ∀ i (hi : i < d.length) c, I c → I (c.poke (b.setWidth 5) (a + BitVec.ofNat 16 i) d[i])) :
    Hoare I ((dev sched faults).bus.write b a d) (fun _ => I) (fun _ => True) :=
  write_ok b a d fun c hc => h.writeBytes _ _ _ _ hp (h.txn c _ hc)

theorem poke_reg' {n : Nat} (hn : n < 8) {P : Sock → Prop} {c : Chip} {a : U16} {x : U8}
    (h : P ((c.socks n).pokeReg a x)) : At n P (c.poke ((sockOf n).register.setWidth 5) a x) := by
  have hr := reg_toNat n hn
  unfold poke
  rw [if_neg (ne_zero_of_toNat (by omega)), if_pos (by omega), show _ / 4 = n by omega]
  show P _
  rw [setSock_self]
  exact h

theorem poke_tx' {n : Nat} (hn : n < 8) {P : Sock → Prop} {c : Chip} {a : U16} {x : U8}
    (h : P ((c.socks n).pokeTx a x)) : At n P (c.poke ((sockOf n).txBuffer.setWidth 5) a x) := by
  have hr := tx_toNat n hn
  unfold poke
  rw [if_neg (ne_zero_of_toNat (by omega)), if_neg (by omega), if_pos (by omega), show _ / 4 = n by omega]
  show P _
  rw [setSock_self]
  exact h

end Chip

/-- A TCP socket without SENDOK. -/
def Waiting (s : Sock) : Prop := s.proto = 1 ∧ s.ir.getLsbD 4 = false

/-- A TCP socket all of whose data is transmitted if SENDOK says so. -/
def Sincere (s : Sock) : Prop := s.proto = 1 ∧ (s.ir.getLsbD 4 = true → s.txRd = s.txLimit)

/-- A TCP socket all of whose data is transmitted. -/
def Spent (s : Sock) : Prop := s.proto = 1 ∧ s.txRd = s.txLimit

theorem stable_spent : StableS Spent := by
  rintro s a ⟨h1, h2⟩
  refine ⟨(act_proto s a).trans h1, ?_⟩
  rw [act_txLimit]
  cases a with
  | transmit k =>
    simp only [act, if_pos h1]
    rw [h2, BitVec.sub_self]
    simp
  | emit b => simp only [act]; split <;> first | rfl | exact h2
  | arrive bs => simp only [act, push]; repeat' split
                 all_goals exact h2
  | datagram d => simp only [act, push]; repeat' split
                  all_goals exact h2
  | frame f => simp only [act, push]; repeat' split
               all_goals exact h2
  | ack k => simp only [act]; split <;> exact h2
  | raise b => exact h2
  | status x => exact h2

theorem act_ir4 {s : Sock} {a : Act} (h : ∀ bits : U8, a = .raise bits → bits.getLsbD 4 = false) :
    (s.act a).ir.getLsbD 4 = s.ir.getLsbD 4 := by
  have hor : ∀ x : U8, (x ||| 4).getLsbD 4 = x.getLsbD 4 := by decide +kernel
  cases a with
  | raise bits =>
    have h5 := h bits rfl
    show (s.ir ||| (if s.proto = 1 then bits else bits &&& (s.owed ||| 0xE7))).getLsbD 4 = _
    rw [BitVec.getLsbD_or]
    split
    · rw [h5, Bool.or_false]
    · rw [BitVec.getLsbD_and, h5, Bool.false_and, Bool.or_false]
  | arrive bs => simp only [act, push]; repeat' split
                 all_goals first | rfl | exact hor _
  | datagram d => simp only [act, push]; repeat' split
                  all_goals first | rfl | exact hor _
  | frame f => simp only [act, push]; repeat' split
               all_goals first | rfl | exact hor _
  | transmit k => simp only [act]; split <;> rfl
  | emit b => simp only [act]; split <;> rfl
  | ack k => simp only [act]; split <;> rfl
  | status x => rfl

/-- Until time `T`, SENDOK stays clear. -/
theorem waiting_ticks {n t T : Nat} (hq : SendOkQuiet sched n t T) :
    Chip.Ticks sched (fun c => t ≤ c.clock ∧ (c.clock ≤ T → At n Waiting c)) := by
  refine ⟨fun c hc => ⟨?_, fun hk => ?_⟩, fun _ _ h => h⟩
  · rw [Chip.tick_clock]; exact Nat.le_succ_of_le hc.1
  · rw [Chip.tick_clock] at hk
    refine (Chip.foldl_event (P := Waiting) (D := fun _ => True) (a := .emit true) (sched c.clock) (fun s a ha h => ?_)
      (fun _ _ _ _ _ => trivial) (fun _ _ => trivial) c (hc.2 (by omega))).1
    exact ⟨(act_proto s a).trans h.1, (act_ir4 fun bits e => hq c.clock hc.1 hk bits (e ▸ ha)).trans h.2⟩

/-- On a truthful chip, SENDOK means that everything is transmitted. -/
theorem sincere_ticks {n : Nat} (ht : SendOkSincere sched n) : Chip.Ticks sched (At n Sincere) := by
  refine ⟨fun c hc => ?_, fun _ _ h => h⟩
  have key : ∀ suf pre c', sched c.clock = pre ++ suf → At n Sincere c' →
      ((∃ j, 65535 ≤ j ∧ (n, .transmit j) ∈ pre) → At n Spent c') → At n Sincere (suf.foldl Chip.event c') := by
    intro suf
    induction suf with
    | nil => exact fun _ _ _ h _ => h
    | cons e suf ih =>
      intro pre c' he h1 h2
      obtain ⟨m, a⟩ := e
      refine ih (pre ++ [(m, a)]) _ (by rw [he]; simp) ?_ ?_
      · by_cases hm : m = n
        · subst hm
          show Sincere (((c'.setSock m ((c'.socks m).act a)).socks m))
          rw [Chip.setSock_self]
          refine ⟨(act_proto _ a).trans h1.1, fun hi => ?_⟩
          by_cases hr : ∃ bits : U8, a = .raise bits ∧ bits.getLsbD 4 = true
          · obtain ⟨bits, rfl, hb⟩ := hr
            exact (stable_spent _ _ (h2 (ht _ pre suf bits he hb))).2
          · rw [act_ir4 fun bits e => by
              rw [← Bool.not_eq_true]; exact fun hb => hr ⟨bits, e, hb⟩] at hi
            exact (stable_spent _ a ⟨h1.1, h1.2 hi⟩).2
        · show Sincere ((c'.setSock m _).socks n)
          rw [Chip.setSock_other _ _ _ _ (Ne.symm hm)]
          exact h1
      · rintro ⟨j, hj, hmem⟩
        by_cases hm : m = n
        · subst hm
          show Spent (((c'.setSock m ((c'.socks m).act a)).socks m))
          rw [Chip.setSock_self]
          rcases List.mem_append.mp hmem with h | h
          · exact stable_spent _ _ (h2 ⟨j, hj, h⟩)
          · simp only [List.mem_cons, Prod.mk.injEq, true_and, List.not_mem_nil, or_false] at h
            subst h
            refine ⟨(act_proto _ _).trans h1.1, ?_⟩
            simp only [act, if_pos h1.1]
            have hlt := ((c'.socks m).txLimit - (c'.socks m).txRd).isLt
            rw [Nat.min_eq_right (by omega), BitVec.ofNat_toNat, BitVec.setWidth_eq]
            generalize (c'.socks m).txRd = p
            generalize (c'.socks m).txLimit = q
            rw [BitVec.add_comm, BitVec.sub_add_cancel]
        · show Spent ((c'.setSock m _).socks n)
          rw [Chip.setSock_other _ _ _ _ (Ne.symm hm)]
          refine h2 ⟨j, hj, ?_⟩
          rcases List.mem_append.mp hmem with h | h
          · exact h
          · simp only [List.mem_cons, Prod.mk.injEq, List.not_mem_nil, or_false] at h
            exact absurd h.1.symm hm
  exact key (sched c.clock) [] c rfl hc fun ⟨_, _, h⟩ => nomatch h

theorem sendok_bit {x : U8} (h : decide (x &&& Interrupt.toU8 .sendOk ≠ 0) = true) : x.getLsbD 4 = true := by
  revert h
  show decide (x &&& 0x10 ≠ 0) = true → _
  revert x
  decide +kernel

theorem hs_waitSpent {n : Nat} (hn : n < 8) (ht : SendOkSincere sched n) (fuel : Nat) :
    Hoare (At n Sincere) (RawDevice.waitSendOk (Chip.dev sched faults).bus (sockOf n) fuel) (fun _ => At n Spent)
      (fun _ => True) := by
  have hT := sincere_ticks ht
  induction fuel with
  | zero => exact .outOfFuel fun _ _ => trivial
  | succ fuel ih =>
    unfold RawDevice.waitSendOk Socket.hasInterrupt
    refine .bind (Q := fun y c => At n Sincere c ∧ (y = true → At n Spent c)) (.bind
      (Q := fun x c => At n Sincere c ∧ x = (c.socks n).ir) ?_ fun x => .pure fun c hx => ⟨hx.1, fun hy => ?_⟩) fun y => ?_
    · exact .conseq ((hT.read1 _ _).and (Chip.read1_value hn 0x02)) (fun _ h => ⟨h, trivial⟩) (fun _ _ h => h)
        fun _ _ => trivial
    · obtain ⟨h1, rfl⟩ := hx
      exact ⟨h1.1, h1.2 (sendok_bit hy)⟩
    · refine .ite (fun hy => .pure fun c h => h.2 hy) fun _ => ih.pre fun _ h => h.1

/-- A TCP `send` that finds SENDOK clear, with no SENDOK before the SEND command, does not return `Ok` before everything is
transmitted. -/
theorem tcp_send_spent {n : Nat} (hn : n < 8) (ht : SendOkSincere sched n) (t : Nat) (fuel : Nat) (data : List U8)
    (hq : SendOkQuiet sched n t (t + 8 + data.length)) :
    Hoare (fun c => c.clock = t ∧ At n Waiting c) (TcpSocket.socketSend (Chip.dev sched faults).bus fuel ⟨sockOf n⟩ data)
      (fun _ => At n Spent) (fun _ => True) := by
  have hT := waiting_ticks hq
  unfold TcpSocket.socketSend TcpSocket.socketIsConnected Socket.getStatus
  refine Hoare.pre (P := fun c => (t ≤ c.clock ∧ (c.clock ≤ t + 8 + data.length → At n Waiting c)) ∧ c.clock = t) ?_
    fun c hc => ⟨⟨by omega, fun _ => hc.2⟩, hc.1⟩
  refine .bind (Q := fun _ c => (t ≤ c.clock ∧ (c.clock ≤ t + 8 + data.length → At n Waiting c)) ∧ c.clock = t + 1)
    (.bind (.mapErr (.conseq ((hT.read1 _ _).and (Chip.read1_clock _ _ t)) (fun _ h => h) (fun _ _ h => h) fun _ _ => trivial))
      fun x => .pure fun _ h => h) fun b => ?_
  refine .ite (fun _ => .throw fun _ _ => trivial) fun _ => ?_
  refine .bind (.mapErr (.conseq ((hT.read2 _ _).and (Chip.read2_clock _ _ (t + 1))) (fun _ h => h) (fun _ _ h => h)
    fun _ _ => trivial)) fun v => ?_
  dsimp only
  suffices H : ∀ wd : List U8, wd.length ≤ data.length → Hoare _ (do
      let writePointer ← M.mapErr TcpSocketError.other
        (Socket.getTxWritePointer (Chip.dev sched faults).bus (sockOf n))
      M.mapErr TcpSocketError.other ((Chip.dev sched faults).bus.write (sockOf n).txBuffer writePointer wd)
      M.mapErr TcpSocketError.other (Socket.setTxWritePointer (Chip.dev sched faults).bus (sockOf n)
            (writePointer + BitVec.ofNat 16 wd.length))
      M.mapErr TcpSocketError.other (Socket.command (Chip.dev sched faults).bus (sockOf n) Command.send)
      M.mapErr TcpSocketError.other (RawDevice.waitSendOk (Chip.dev sched faults).bus (sockOf n) fuel)
      M.mapErr TcpSocketError.other (Socket.resetInterrupt (Chip.dev sched faults).bus (sockOf n) Interrupt.sendOk)
      pure wd.length) _ _ by
    split
    · exact H data (Nat.le_refl _)
    · unfold M.sliceTo
      rw [if_pos (by omega)]
      exact H _ (by rw [List.length_take]; omega)
  intro wd hwd
  refine .bind (.mapErr (.conseq ((hT.read2 _ _).and (Chip.read2_clock _ _ (t + 1 + 2))) (fun _ h => h) (fun _ _ h => h)
    fun _ _ => trivial)) fun p => ?_
  refine .bind (.mapErr (.conseq ((hT.write _ _ _ fun i hi c hc => ?_).and (Chip.write_clock _ _ _ (t + 1 + 2 + 2)))
    (fun _ h => h) (fun _ _ h => h) fun _ _ => trivial)) fun _ => ?_
  · rw [Chip.poke_clock]
    exact ⟨hc.1, fun hk => Chip.poke_tx' hn (hc.2 hk)⟩
  refine .bind (.mapErr (.conseq ((hT.write _ _ _ fun i hi c hc => ?_).and (Chip.write_clock _ _ _ (t + 1 + 2 + 2 + wd.length)))
    (fun _ h => h) (fun _ _ h => h) fun _ _ => trivial)) fun _ => ?_
  · rw [Chip.poke_clock]
    refine ⟨hc.1, fun hk => Chip.poke_reg' hn ?_⟩
    have hi : i < 2 := hi
    obtain rfl | rfl : i = 0 ∨ i = 1 := by omega
    · exact hc.2 hk
    · exact hc.2 hk
  refine .bind (Q := fun _ => At n Sincere) (.mapErr (Chip.write_ok _ _ _ fun c hc => ?_)) fun _ => ?_
  · obtain ⟨h1, h2⟩ := hc
    have h3 := hT.tick _ (hT.txn c (c.txn + 1) h1)
    have h2 : c.clock = t + 1 + 2 + 2 + wd.length + 2 := h2
    have h4 := h3.2 (by
      show c.clock + 1 ≤ _
      omega)
    refine Chip.poke_reg' hn (P := Sincere) ⟨h4.1, fun hi => ?_⟩
    have h5 : (Chip.tick sched { c with txn := c.txn + 1 } |>.socks n).ir.getLsbD 4 = true := hi
    rw [h4.2] at h5
    exact nomatch h5
  refine .bind (.mapErr (hs_waitSpent hn ht fuel)) fun _ => ?_
  refine .bind (Q := fun _ => At n Spent) (.mapErr (Chip.write_ok _ _ _ fun c hc => ?_)) fun _ => .pure fun _ h => h
  have h1 : At n Spent (Chip.tick sched { c with txn := c.txn + 1 }) :=
    have hS := Stays.ticks (sched := sched) (n := n) (P := Spent) fun _ a _ s => stable_spent s a
    hS.tick _ (hS.txn c (c.txn + 1) hc)
  exact Chip.poke_reg' hn (P := Spent) h1

/-- After a TCP `send` that returned `Ok`, SENDOK is clear. -/
theorem tcp_send_clears {n : Nat} (hn : n < 8) (fuel : Nat) (data : List U8) :
    Hoare (fun _ => True) (TcpSocket.socketSend (Chip.dev sched faults).bus fuel ⟨sockOf n⟩ data)
      (fun _ => At n fun s => s.ir.getLsbD 4 = false) (fun _ => True) := by
  unfold TcpSocket.socketSend
  refine .bind .nothing fun b => .ite (fun _ => .throw fun _ _ => trivial) fun _ => ?_
  refine .bind .nothing fun v => ?_
  dsimp only
  have H : ∀ (wd : List U8), Hoare (fun _ => True) (do
      M.mapErr TcpSocketError.other (Socket.resetInterrupt (Chip.dev sched faults).bus (sockOf n) Interrupt.sendOk)
      pure wd.length) (fun _ => At n fun s => s.ir.getLsbD 4 = false) (fun _ => True) := fun wd => by
    refine .bind (Q := fun _ => At n fun s => s.ir.getLsbD 4 = false) (.mapErr (Chip.write_ok _ _ _ fun c _ => ?_))
      fun _ => .pure fun _ h => h
    refine Chip.poke_reg' hn (P := fun s => s.ir.getLsbD 4 = false) ?_
    show (_ &&& ~~~(0x10 : U8)).getLsbD 4 = false
    rw [BitVec.getLsbD_and]
    exact Bool.and_false _
  split <;>
    exact (.bind .nothing fun _ => .bind .nothing fun _ => .bind .nothing fun _ => .bind .nothing fun _ =>
      .bind .nothing fun _ => .bind .nothing fun _ => H _)

end W5500.Spec
