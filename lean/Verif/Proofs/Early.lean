import Verif.Proofs.StrategyDev
import Verif.Proofs.Until
import Verif.Proofs.Reset
import Verif.Proofs.RawHistory
import Verif.Proofs.UdpHistory
/-! # The first transfers of a call

Every call makes some transfers before it moves a pointer register of the chip. If it fails in one of them, the socket is still in a state it
could have got into by itself (but for the contents of its buffers). -/

namespace W5500.Spec
open W5500 Sock socketn
variable {E ε α S : Type} {sched : Nat → List (Nat × Act)} {faults : Nat → Option (E × Nat)} {n k L : Nat} {P : Sock → Prop}

/-- Socket `n` is in a state `P`, and at least `k` transactions were made. -/
def Sofar (n : Nat) (P : Sock → Prop) (k : Nat) (c : Chip) : Prop := At n P c ∧ k ≤ c.txn

/-- Socket `n` is in a state `P`, or at least `L` transactions were made. -/
def EarlyOr (n : Nat) (P : Sock → Prop) (L : Nat) (c : Chip) : Prop := At n P c ∨ L ≤ c.txn

theorem count_readBuf (b : U8) (a : U16) (i : List U8) : Hoare (fun c : Chip => k ≤ c.txn) ((Chip.dev sched faults).bus.readBuf b a i)
    (fun _ c => k + 1 ≤ c.txn) (fun c => k + 1 ≤ c.txn) := by
  constructor
  intro c hc
  have h := Chip.readFrame_txn (sched := sched) (faults := faults) c b a i
  unfold Bus.readBuf
  generalize (Chip.dev sched faults).bus.readFrame c b a i = r at h
  obtain ⟨_ | _ | _ | _, d, c'⟩ := r <;> exact (show k + 1 ≤ c'.txn by dsimp only at h; omega)

theorem count_read1 (b : U8) (a : U16) : Hoare (fun c : Chip => k ≤ c.txn) ((Chip.dev sched faults).bus.read1 b a)
    (fun _ c => k + 1 ≤ c.txn) (fun c => k + 1 ≤ c.txn) := by
  unfold Bus.read1
  refine .bind (count_readBuf b a _) fun l => ?_
  split
  · exact .pure fun _ h => h
  · exact .panic fun _ h => h

theorem count_read2 (b : U8) (a : U16) : Hoare (fun c : Chip => k ≤ c.txn) ((Chip.dev sched faults).bus.read2 b a)
    (fun _ c => k + 1 ≤ c.txn) (fun c => k + 1 ≤ c.txn) := by
  unfold Bus.read2
  refine .bind (count_readBuf b a _) fun l => ?_
  split
  · exact .pure fun _ h => h
  · exact .panic fun _ h => h

theorem count_write (b : U8) (a : U16) (d : List U8) : Hoare (fun c : Chip => k ≤ c.txn) ((Chip.dev sched faults).bus.write b a d)
    (fun _ c => k + 1 ≤ c.txn) (fun c => k + 1 ≤ c.txn) := by
  constructor
  intro c hc
  have h := Chip.writeFrame_txn (sched := sched) (faults := faults) c b a d
  unfold Bus.write
  generalize (Chip.dev sched faults).bus.writeFrame c b a d = r at h
  obtain ⟨_ | _ | _ | _, c'⟩ := r <;> exact (show k + 1 ≤ c'.txn by dsimp only at h; omega)

theorem early_readBuf (hP : StableS P) (b : U8) (a : U16) (i : List U8) :
    Hoare (Sofar n P k) ((Chip.dev sched faults).bus.readBuf b a i) (fun _ => Sofar n P (k + 1)) (EarlyOr n P L) :=
  ((Chip.hoare_readBuf (hP.at n) b a i).and (count_readBuf b a i)).conseq (fun _ h => h) (fun _ _ h => ⟨h.1.1, h.2⟩) fun _ h => .inl h.1

theorem early_read1 (hP : StableS P) (b : U8) (a : U16) :
    Hoare (Sofar n P k) ((Chip.dev sched faults).bus.read1 b a) (fun _ => Sofar n P (k + 1)) (EarlyOr n P L) :=
  ((Chip.hoare_read1 (hP.at n) b a).and (count_read1 b a)).conseq (fun _ h => h) (fun _ _ h => ⟨h.1.1, h.2⟩) fun _ h => .inl h.1

theorem early_read2 (hP : StableS P) (b : U8) (a : U16) :
    Hoare (Sofar n P k) ((Chip.dev sched faults).bus.read2 b a) (fun _ => Sofar n P (k + 1)) (EarlyOr n P L) :=
  ((Chip.hoare_read2 (hP.at n) b a).and (count_read2 b a)).conseq (fun _ h => h) (fun _ _ h => ⟨h.1.1, h.2⟩) fun _ h => .inl h.1

theorem early_readSlice (hP : StableS P) (b : U8) (a : U16) :
    Hoare (fun s : List U8 × Chip => Sofar n P k s.2) ((Chip.dev sched faults).bus.readSlice b a) (fun _ s => Sofar n P (k + 1) s.2)
      (fun s => EarlyOr n P L s.2) := by
  constructor
  rintro ⟨l, c⟩ ⟨h1, h2⟩
  have h3 := (early_readBuf (sched := sched) (faults := faults) (n := n) (k := k) (L := L) hP b a l).run c ⟨h1, h2⟩
  unfold Bus.readBuf at h3
  unfold Bus.readSlice
  dsimp only
  generalize (Chip.dev sched faults).bus.readFrame c b a l = r at h3
  obtain ⟨_ | _ | _ | _, d, c'⟩ := r <;> exact h3

theorem early_writeTx (hn : n < 8) (hP : StableS P) (hp : ∀ s p x, P s → P (s.pokeTx p x)) (p : U16) (data : List U8) :
    Hoare (Sofar n P k) ((Chip.dev sched faults).bus.write (sockOf n).txBuffer p data) (fun _ => Sofar n P (k + 1)) (EarlyOr n P L) :=
  ((hs_writeTx hn (I := fun _ => P) p data (fun _ _ _ => hP) fun _ _ s h => hp s _ _ h).and (count_write _ _ _)).conseq (fun _ h => h)
    (fun _ _ h => h) fun _ h => .inl (by obtain ⟨⟨_, _, h⟩, _⟩ := h; exact h)

theorem early_clear (hn : n < 8) (hP : StableS P) (hp : ∀ s i, P s → P { s with ir := i }) (x : U8) :
    Hoare (Sofar n P k) ((Chip.dev sched faults).bus.write (sockOf n).register 2 [x]) (fun _ => Sofar n P (k + 1)) (EarlyOr n P L) :=
  ((hs_clearIr hn hP x (fun s i h => hp s i h)).and (count_write _ _ _)).conseq (fun _ h => h) (fun _ _ h => h) fun _ h => .inl h.1

theorem early_size (hP : StableS P) (s : Socket) (fuel : Nat) :
    Hoare (Sofar n P k) (s.getReceiveSize (Chip.dev sched faults).bus fuel) (fun _ => Sofar n P (k + 2)) (EarlyOr n P L) := by
  induction fuel generalizing k with
  | zero => exact .outOfFuel fun _ h => .inl h.1
  | succ fuel ih =>
    unfold Socket.getReceiveSize
    refine .bind (early_read2 hP _ _) fun _ => .bind (early_read2 hP _ _) fun _ => .ite (fun _ => .pure fun _ h => h) fun _ => ?_
    exact (ih (k := k + 2)).post fun _ _ h => ⟨h.1, by have := h.2; omega⟩

/-- After `L` transactions it does not matter what is done. -/
theorem late_play {m : (W : Type) → Bus W E → M W ε α} (hm : Play0 m) :
    Hoare (fun c : Chip => L ≤ c.txn) (m Chip (Chip.dev sched faults).bus) (fun _ c => L ≤ c.txn) (EarlyOr n P L) := by
  constructor
  intro c hc
  obtain ⟨g, hg⟩ := hm
  have h := (play_counts ⟨sched, faults⟩ g c).2
  have e := hg Chip (Chip.dev sched faults).bus c
  rw [show g.play (Plan.bus ⟨sched, faults⟩) c = _ from e.symm] at h
  dsimp only at h
  generalize m Chip (Chip.dev sched faults).bus c = r at h
  obtain ⟨_ | _ | _ | _, c'⟩ := r
  · exact Nat.le_trans hc h
  all_goals exact .inr (Nat.le_trans hc h)

/-- The transaction number `L`. -/
theorem late_write (b : U8) (a : U16) (d : List U8) :
    Hoare (Sofar n P k) ((Chip.dev sched faults).bus.write b a d) (fun _ c => k + 1 ≤ c.txn) (EarlyOr n P (k + 1)) :=
  (count_write b a d).conseq (fun _ h => h.2) (fun _ _ h => h) fun _ h => .inr h

theorem Sofar.early {c : Chip} (h : Sofar n P k c) : EarlyOr n P L c := .inl h.1

theorem early_sliceTo (b : List U8) (i : Nat) :
    Hoare (Sofar n P k) (M.sliceTo b i : M Chip ε _) (fun _ => Sofar n P k) (EarlyOr n P L) := by
  unfold M.sliceTo
  split
  · exact .pure fun _ h => h
  · exact .panic fun _ h => h.early

theorem early_sliceFrom (b : List U8) (i : Nat) :
    Hoare (Sofar n P k) (M.sliceFrom b i : M Chip ε _) (fun _ => Sofar n P k) (EarlyOr n P L) := by
  unfold M.sliceFrom
  split
  · exact .pure fun _ h => h
  · exact .panic fun _ h => h.early

/-! ## TCP -/

/-- `send`: four transfers, which leave the write pointer alone. -/
theorem early_tcpSend (hn : n < 8) (hP : StableS P) (hp : ∀ s p x, P s → P (s.pokeTx p x)) (fuel : Nat) (data : List U8) :
    Hoare (Sofar n P k) (TcpSocket.socketSend (Chip.dev sched faults).bus fuel ⟨sockOf n⟩ data) (fun _ _ => True) (EarlyOr n P (k + 5)) := by
  unfold TcpSocket.socketSend TcpSocket.socketIsConnected
  refine .bind (Q := fun _ => Sofar n P (k + 1)) (.bind (.mapErr (early_read1 hP _ _)) fun _ => .pure fun _ h => h) fun _ => ?_
  refine .ite (fun _ => .throw fun _ h => h.early) fun _ => ?_
  refine .bind (.mapErr (early_read2 hP _ _)) fun _ => ?_
  suffices H : ∀ wd : List U8, Hoare (Sofar n P (k + 2)) (do
      let writePointer ← M.mapErr TcpSocketError.other (Socket.getTxWritePointer (Chip.dev sched faults).bus (sockOf n))
      M.mapErr TcpSocketError.other ((Chip.dev sched faults).bus.write (sockOf n).txBuffer writePointer wd)
      M.mapErr TcpSocketError.other (Socket.setTxWritePointer (Chip.dev sched faults).bus (sockOf n)
            (writePointer + BitVec.ofNat 16 wd.length))
      M.mapErr TcpSocketError.other (Socket.command (Chip.dev sched faults).bus (sockOf n) Command.send)
      M.mapErr TcpSocketError.other (RawDevice.waitSendOk (Chip.dev sched faults).bus (sockOf n) fuel)
      M.mapErr TcpSocketError.other (Socket.resetInterrupt (Chip.dev sched faults).bus (sockOf n) Interrupt.sendOk)
      pure wd.length) (fun _ _ => True) (EarlyOr n P (k + 5)) by
    dsimp only
    split
    · exact H data
    · exact .bind (early_sliceTo _ _) H
  intro wd
  refine .bind (.mapErr (early_read2 hP _ _)) fun _ => ?_
  refine .bind (.mapErr (early_writeTx hn hP hp _ _)) fun _ => ?_
  refine .bind (.mapErr (late_write _ _ _)) fun _ => ?_
  refine .bind (.mapErr (late_play (play_command _ _))) fun _ => ?_
  refine .bind (.mapErr (late_play (play_waitSendOk _ fuel))) fun _ => ?_
  exact .bind (.mapErr (late_play (play_resetInterrupt _ _))) fun _ => .pure fun _ _ => trivial

/-- `receive`: six transfers, which only read. -/
theorem early_tcpReceive (hP : StableS P) (t : TcpSocket) (fuel : Nat) :
    Hoare (fun s : List U8 × Chip => Sofar n P k s.2) (t.socketReceive (Chip.dev sched faults).bus fuel) (fun _ _ => True)
      (fun s => EarlyOr n P (k + 7) s.2) := by
  have on : ∀ {α : Type} {Q Q' : Chip → Prop} {m : M Chip (TcpSocketError E) α}, Hoare Q m (fun _ => Q') (EarlyOr n P (k + 7)) →
      Hoare (fun s : List U8 × Chip => Q s.2) (M.onSnd m) (fun _ s => Q' s.2) (fun s => EarlyOr n P (k + 7) s.2) := fun h => .onSnd fun _ => h
  unfold TcpSocket.socketReceive TcpSocket.socketIsConnected Socket.hasInterrupt
  refine .bind (on (Q' := Sofar n P (k + 1)) (.bind (.mapErr (early_read1 hP _ _)) fun _ => .pure fun _ h => h)) fun _ => ?_
  refine .ite (fun _ => .throw fun _ h => h.early) fun _ => ?_
  refine .bind (on (Q' := Sofar n P (k + 2)) (.mapErr (.bind (early_read1 hP _ _) fun _ => .pure fun _ h => h))) fun _ => ?_
  refine .ite (fun _ => .pure fun _ _ => trivial) fun _ => ?_
  refine .bind (on (.mapErr (early_size hP _ _))) fun _ => ?_
  refine .bind (Q := fun _ s => Sofar n P (k + 4) s.2) (.get fun _ h => h) fun _ => ?_
  refine .bind (on (.mapErr (early_read2 hP _ _))) fun _ => ?_
  refine .bind (Q := fun _ s => Sofar n P (k + 6) s.2) (.withPrefix (fun _ _ => ?_) fun _ h _ => h.early) fun _ => ?_
  · exact (Hoare.mapErr (early_readSlice (L := k + 7) hP _ _)).pre fun _ h => h.2
  refine .bind (on (.mapErr (late_write _ _ _))) fun _ => ?_
  refine .bind (on (.mapErr (late_play (play_command _ _)))) fun _ => ?_
  exact .bind (on (.mapErr (late_play (play_resetInterrupt _ _)))) fun _ => .pure fun _ _ => trivial

/-! ## UDP -/

theorem early_checkStatus (hP : StableS P) (u : UdpSocket) :
    Hoare (Sofar n P k) (u.checkStatus (Chip.dev sched faults).bus) (fun _ => Sofar n P (k + 1)) (EarlyOr n P L) := by
  unfold UdpSocket.checkStatus
  refine .bind (.mapErr (early_read1 hP _ _)) fun _ => ?_
  split
  · exact .pure fun _ h => h
  · exact .throw fun _ h => h.early
  · exact .throw fun _ h => h.early

/-- One piece. -/
theorem early_udpPiece (hn : n < 8) (hP : StableS P) (hp : ∀ s p x, P s → P (s.pokeTx p x)) (u : UdpSocket) (hu : u.socket = sockOf n) (fuel : Nat)
    (data : List U8) :
    Hoare (Sofar n P k) (u.socketSend (Chip.dev sched faults).bus fuel data) (fun _ c => k + 5 ≤ c.txn) (EarlyOr n P (k + 5)) := by
  unfold UdpSocket.socketSend
  refine .bind (early_checkStatus hP u) fun _ => .ite (fun _ => .throw fun _ h => h.early) fun _ => ?_
  refine .bind (.mapErr (early_read2 hP _ _)) fun v => .ite (fun _ => .throw fun _ h => h.early) fun _ => ?_
  rw [hu]
  suffices H : ∀ wd : List U8, Hoare (Sofar n P (k + 2)) (do
      let writePointer ← M.mapErr (NbError.ofBus (E := E)) (Socket.getTxWritePointer (Chip.dev sched faults).bus (sockOf n))
      M.mapErr NbError.ofBus ((Chip.dev sched faults).bus.write (sockOf n).txBuffer writePointer wd)
      M.mapErr NbError.ofBus (Socket.setTxWritePointer (Chip.dev sched faults).bus (sockOf n)
            (writePointer + BitVec.ofNat 16 wd.length))
      u.blockSendCommand (Chip.dev sched faults).bus fuel
      pure wd.length) (fun _ c => k + 5 ≤ c.txn) (EarlyOr n P (k + 5)) by
    split
    · exact H data
    · exact .bind (early_sliceTo _ _) H
  intro wd
  refine .bind (.mapErr (early_read2 hP _ _)) fun _ => ?_
  refine .bind (.mapErr (early_writeTx hn hP hp _ _)) fun _ => ?_
  refine .bind (.mapErr (late_write _ _ _)) fun _ => ?_
  unfold UdpSocket.blockSendCommand
  refine .bind (Q := fun _ c => k + 5 ≤ c.txn) (.bind (.mapErr (late_play (play_command _ _))) fun _ => late_play (play_flushLoop u fuel)) fun _ => ?_
  exact .pure fun _ h => h

/-- `send`: six transfers, which leave the write pointer alone. -/
theorem early_udpSend (hn : n < 8) (hP : StableS P) (hp : ∀ s p x, P s → P (s.pokeTx p x)) (u : UdpSocket) (hu : u.socket = sockOf n) (fuel : Nat)
    (data : List U8) :
    Hoare (Sofar n P k) (u.socketSendAll (Chip.dev sched faults).bus fuel data) (fun _ _ => True) (EarlyOr n P (k + 7)) := by
  unfold UdpSocket.socketSendAll
  refine .bind (early_checkStatus hP u) fun _ => .ite (fun _ => .throw fun _ h => h.early) fun _ => ?_
  refine .bind (.mapErr (early_read2 hP _ _)) fun v => .ite (fun _ => .throw fun _ h => h.early) fun _ => ?_
  cases fuel with
  | zero => exact .outOfFuel fun _ h => h.early
  | succ m =>
    unfold UdpSocket.sendAllLoop
    refine .ite (fun _ => .pure fun _ _ => trivial) fun _ => ?_
    refine .bind (early_sliceFrom _ _) fun r => .bind (early_sliceTo _ _) fun b => ?_
    have h1 := early_udpPiece (sched := sched) (faults := faults) (k := k + 2) hn hP hp u hu (m + 1) b
    rw [show k + 2 + 5 = k + 7 from rfl] at h1
    refine .bind h1 fun sent => ?_
    refine .bind (.mapErr (late_play (play_getTxFreeSize _))) fun free => ?_
    exact (late_play (play_sendAllLoop u (m + 1) data m free _)).post fun _ _ _ => trivial

/-- `receive`: seven transfers, which only read. -/
theorem early_udpReceive (hP : StableS P) (u : UdpSocket) (fuel : Nat) :
    Hoare (fun s : List U8 × Chip => Sofar n P k s.2) (u.socketReceive (Chip.dev sched faults).bus fuel) (fun _ _ => True)
      (fun s => EarlyOr n P (k + 8) s.2) := by
  have on : ∀ {α : Type} {Q Q' : Chip → Prop} {m : M Chip (NbError (UdpSocketError E)) α}, Hoare Q m (fun _ => Q') (EarlyOr n P (k + 8)) →
      Hoare (fun s : List U8 × Chip => Q s.2) (M.onSnd m) (fun _ s => Q' s.2) (fun s => EarlyOr n P (k + 8) s.2) := fun h => .onSnd fun _ => h
  unfold UdpSocket.socketReceive Socket.hasInterrupt
  refine .bind (on (early_checkStatus hP u)) fun _ => ?_
  refine .bind (on (Q' := Sofar n P (k + 2)) (.mapErr (.bind (early_read1 hP _ _) fun _ => .pure fun _ h => h))) fun _ => ?_
  refine .ite (fun _ => .throw fun _ h => h.early) fun _ => ?_
  refine .bind (on (.mapErr (early_size hP _ _))) fun _ => ?_
  refine .ite (fun _ => .throw fun _ h => h.early) fun _ => ?_
  refine .bind (Q := fun _ s => Sofar n P (k + 4) s.2) (.get fun _ h => h) fun _ => ?_
  refine .ite (fun _ => .throw fun _ h => h.early) fun _ => ?_
  refine .bind (on (.mapErr (early_read2 hP _ _))) fun _ => ?_
  refine .bind (on (.mapErr (early_readBuf hP _ _ _))) fun _ => ?_
  split
  · exact .panic fun _ h => h.early
  refine .bind (Q := fun _ s => Sofar n P (k + 7) s.2) (.withPrefix (fun _ _ => ?_) fun _ h _ => h.early) fun _ => ?_
  · exact (Hoare.mapErr (early_readSlice (L := k + 8) hP _ _)).pre fun _ h => h.2
  refine .bind (on (.mapErr (late_write _ _ _))) fun _ => ?_
  refine .bind (on (.mapErr (late_play (play_command _ _)))) fun _ => ?_
  exact .bind (on (.mapErr (late_play (play_resetInterrupt _ _)))) fun _ => .pure fun _ _ => trivial

/-! ## MACRAW -/

theorem bytes_of (x y : U8) : x = (x ++ y : BitVec (8 + 8)).extractLsb' 8 8 ∧ y = (x ++ y : BitVec (8 + 8)).extractLsb' 0 8 := by
  have := y.isLt
  have := x.isLt
  constructor <;>
  · apply BitVec.eq_of_toNat_eq
    simp only [BitVec.extractLsb'_toNat, BitVec.toNat_append, Nat.shiftLeft_eq, Nat.shiftRight_eq_div_pow]
    rw [Nat.mul_comm, ← Nat.two_pow_add_eq_or_of_lt y.isLt]
    omega

theorem Hoare.or_pre {σ : Type} {P1 P2 : σ → Prop} {m : M σ ε α} {Q : α → σ → Prop} {R : σ → Prop} (h1 : Hoare P1 m Q R) (h2 : Hoare P2 m Q R) :
    Hoare (fun s => P1 s ∨ P2 s) m Q R := ⟨fun s h => h.elim (h1.run s) (h2.run s)⟩

/-- Writing back the value that is in the TX write pointer register. -/
theorem early_writeSame (hn : n < 8) (hP : StableS P) (v : U16) :
    Hoare (Sofar n (fun s => P s ∧ s.txWr = v) k) ((Chip.dev sched faults).bus.write (sockOf n).register 0x24 (toBeBytes v))
      (fun _ => Sofar n P (k + 1)) (EarlyOr n P L) := by
  have hS : StableS (fun s => P s ∧ s.txWr = v) := fun s a h => ⟨hP s a h.1, (act_txWr s a).trans h.2⟩
  have same : ∀ (s : Sock) (a : U16) (x : U8), a ∉ [0x01, 0x02, 0x03, 0x20, 0x21, 0x22, 0x23, 0x26, 0x27, 0x2A, 0x2B] → s.mem a = x →
      s.pokeReg a x = s := by
    intro s a x ha h
    simp only [List.mem_cons, List.not_mem_nil, or_false, not_or] at ha
    unfold pokeReg
    rw [if_neg ha.1, if_neg ha.2.1, if_neg (by simp only [not_or]; exact ha.2.2)]
    have : (fun b => if b = a then x else s.mem b) = s.mem := by
      funext b
      split
      · next e => rw [e, h]
      · rfl
    rw [this]
  refine ((hs_write2 (P1 := fun s => P s ∧ s.txWr = v) (Q := fun s => P s ∧ s.txWr = v) hn hS hS 0x24 v ?_ ?_).and (count_write _ _ _)).conseq
    (fun _ h => h) (fun _ _ h => ⟨h.1.1, h.2⟩) fun _ h => .inl ?_
  · intro s h
    rw [same s 0x24 _ (by decide) (by rw [← h.2]; exact (bytes_of (s.mem 0x24) (s.mem 0x25)).1)]
    exact h
  · intro s h
    rw [same s (0x24 + 1) _ (by decide) (by rw [← h.2]; exact (bytes_of (s.mem 0x24) (s.mem 0x25)).2)]
    exact h
  · rcases h.1 with h | h | h <;> exact h.1

/-- `write_frame`: four transfers, which leave the write pointer alone (the fourth may write back what is there). -/
theorem early_rawWrite (hn : n < 8) (hP : StableS P) (hp : ∀ s p x, P s → P (s.pokeTx p x)) (hi : ∀ s i, P s → P { s with ir := i })
    (r : RawDevice) (hr : r.rawSocket = sockOf n) (fuel : Nat) (frame : List U8) :
    Hoare (Sofar n P k) (r.writeFrame (Chip.dev sched faults).bus fuel frame) (fun _ _ => True) (EarlyOr n P (k + 5)) := by
  unfold RawDevice.writeFrame TxCursor.new TxCursor.commit
  rw [hr]
  refine .bind (early_clear hn hP hi _) fun _ => ?_
  refine .bind (Q := fun x c => x.sock = sockOf n ∧ Sofar n (fun s => P s ∧ s.txWr = x.ptr) (k + 3) c) (.bind (early_read2 hP _ _) fun _ =>
    .bind (Q := fun p => Sofar n (fun s => P s ∧ s.txWr = p) (k + 3)) (((hs_readMem hn hP _ (.inl rfl)).and (count_read2 _ _)).conseq (fun _ h => h)
      (fun _ _ h => ⟨⟨h.1.1, h.1.2.symm⟩, h.2⟩) fun _ h => .inl h.1) fun _ =>
    .pure fun _ h => ⟨rfl, h⟩) fun x => .fact fun hx => ?_
  obtain ⟨sock, p, size⟩ := x
  dsimp only at hx ⊢
  subst hx
  refine .bind (Q := fun y c => y.2.sock = sockOf n ∧ (Sofar n P (k + 4) c ∨ Sofar n (fun s => P s ∧ s.txWr = y.2.ptr) (k + 3) c)) ?_ fun y => .fact fun hy => ?_
  · unfold TxCursor.write
    split
    · exact .pure fun _ h => ⟨rfl, .inr h⟩
    · refine .pre (P := Sofar n P (k + 3)) ?_ fun _ h => ⟨h.1.1, h.2⟩
      refine .bind (early_sliceTo _ _) fun _ => .bind (early_writeTx hn hP hp _ _) fun _ => .pure fun _ h => ⟨rfl, .inl h⟩
  obtain ⟨count, y⟩ := y
  dsimp only at hy ⊢
  refine .bind (Q := fun _ c => k + 5 ≤ c.txn) (.bind (Q := fun _ c => k + 5 ≤ c.txn ∨ Sofar n P (k + 4) c) ?_ fun _ => ?_) fun _ => ?_
  · rw [hy]
    refine Hoare.or_pre ?_ ?_
    · exact (late_write _ _ _).post fun _ _ h => .inl h
    · exact (early_writeSame hn hP _).post fun _ _ h => .inr h
  · refine Hoare.or_pre (late_play (play_command _ _)) ?_
    unfold Socket.command
    exact late_write _ _ _
  exact .bind (late_play (play_waitSendOk _ fuel)) fun _ => .pure fun _ _ => trivial

/-- `read_frame`: four transfers (and a fifth, if the buffer is not empty), which only read. -/
theorem early_rawRead (hP : StableS P) (r : RawDevice) (fuel : Nat) :
    Hoare (fun s : List U8 × Chip => Sofar n P k s.2) (r.readFrame (Chip.dev sched faults).bus fuel) (fun _ _ => True)
      (fun s => EarlyOr n P (k + 5) s.2) := by
  have on : ∀ {α : Type} {Q Q' : Chip → Prop} {m : M Chip E α}, Hoare Q m (fun _ => Q') (EarlyOr n P (k + 5)) →
      Hoare (fun s : List U8 × Chip => Q s.2) (M.onSnd m) (fun _ s => Q' s.2) (fun s => EarlyOr n P (k + 5) s.2) := fun h => .onSnd fun _ => h
  constructor
  rintro ⟨buf, c⟩ hc
  rw [readFrame_split]
  refine Hoare.run (P := fun s : List U8 × Chip => Sofar n P k s.2) (Q := fun _ _ => True) (R := fun s => EarlyOr n P (k + 5) s.2) ?_ (buf, c) hc
  refine .bind (Q := fun x s => x ≠ none → Sofar n P (k + 4) s.2) (.onSnd fun b => ?_) fun x => ?_
  · unfold rawHead
    refine .bind (early_size hP _ _) fun _ => .bind (early_read2 hP _ _) fun _ => ?_
    refine .ite (fun _ => .pure fun _ _ h => absurd rfl h) fun _ => ?_
    refine .bind (early_readBuf hP _ _ _) fun _ => ?_
    split
    · exact .pure fun _ h _ => h
    · exact .panic fun _ h => h.early
  · cases x with
    | none => exact .pure fun _ _ => trivial
    | some x =>
      obtain ⟨p, av, ex⟩ := x
      refine .pre (P := fun s : List U8 × Chip => Sofar n P (k + 4) s.2) ?_ fun _ h => h nofun
      unfold rawTail
      refine .bind (Q := fun _ s => Sofar n P (k + 4) s.2) ?_ fun _ => ?_
      · split
        · exact .pure fun _ h => h
        · refine .withPrefix (fun _ _ => ?_) fun _ h _ => h.early
          exact (early_readSlice (L := k + 5) hP _ _).conseq (fun _ h => h.2) (fun _ _ h => ⟨h.1, Nat.le_of_succ_le h.2⟩) fun _ h => h
      refine .bind (on (late_write _ _ _)) fun _ => ?_
      exact .bind (on (late_play (play_command _ _))) fun _ => .pure fun _ _ => trivial

end W5500.Spec
