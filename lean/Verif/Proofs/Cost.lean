import Verif.Spec.Cost
import Verif.Proofs.ErrIn
import Verif.Model.Udp
import Verif.Model.Tcp
import Verif.Proofs.Sendok
/-! # Costs of the driver's functions -/

namespace W5500.Spec
open W5500 socketn
variable {σ W E ε ε' α β : Type}

namespace Meter

/-- Only the bus counts. -/
def snd {S : Type} (g : Meter σ) : Meter (S × σ) := ⟨fun s => g.transfers s.2, fun s => g.bytes s.2⟩

theorem Spent.refl (g : Meter σ) (s : σ) (t b : Nat) : g.Spent s s t b := ⟨Nat.le_add_right _ _, Nat.le_add_right _ _⟩

theorem Spent.trans {g : Meter σ} {s s' s'' : σ} {t b t' b' : Nat} (h : g.Spent s s' t b) (h' : g.Spent s' s'' t' b') :
    g.Spent s s'' (t + t') (b + b') := by
  obtain ⟨h1, h2⟩ := h
  obtain ⟨h3, h4⟩ := h'
  exact ⟨by omega, by omega⟩

theorem Spent.le {g : Meter σ} {s s' : σ} {t b t' b' : Nat} (h : g.Spent s s' t b) (ht : t ≤ t') (hb : b ≤ b') :
    g.Spent s s' t' b' := by
  obtain ⟨h1, h2⟩ := h
  exact ⟨by omega, by omega⟩

end Meter

/-- However it ends, `m` costs at most this. -/
structure Costs (g : Meter σ) (t b : Nat) (m : M σ ε α) : Prop where
  run : ∀ s, g.Spent s (m s).2 t b

namespace Costs
variable {g : Meter σ} {t b t' b' : Nat}

theorem le {m : M σ ε α} (h : Costs g t b m) (ht : t ≤ t') (hb : b ≤ b') : Costs g t' b' m := ⟨fun s => (h.run s).le ht hb⟩

theorem bind {m : M σ ε α} {f : α → M σ ε β} (hm : Costs g t b m) (hf : ∀ a, Costs g t' b' (f a)) :
    Costs g (t + t') (b + b') (m >>= f) := by
  constructor
  intro s
  have h1 := hm.run s
  rw [M.bind_def]
  rcases hr : m s with ⟨a | e | _ | _, s'⟩
  · rw [hr] at h1; exact h1.trans ((hf a).run s')
  all_goals rw [hr] at h1; exact h1.le (Nat.le_add_right _ _) (Nat.le_add_right _ _)

theorem pure (a : α) : Costs g 0 0 (pure a : M σ ε α) := ⟨fun s => .refl g s 0 0⟩
theorem throw (e : ε) : Costs g t b (M.throw e : M σ ε α) := ⟨fun s => .refl g s t b⟩
theorem panic : Costs g t b (M.panic : M σ ε α) := ⟨fun s => .refl g s t b⟩
theorem fuel : Costs g t b (M.outOfFuel : M σ ε α) := ⟨fun s => .refl g s t b⟩
theorem get : Costs g 0 0 (M.get : M σ ε σ) := ⟨fun s => .refl g s 0 0⟩

theorem mapErr {m : M σ ε α} {f : ε → ε'} (h : Costs g t b m) : Costs g t b (M.mapErr f m) := by
  constructor
  intro s
  have h1 := h.run s
  unfold M.mapErr
  rcases hr : m s with ⟨a | e | _ | _, s'⟩ <;> rw [hr] at h1 <;> exact h1

theorem ite {c : Prop} [Decidable c] {m m' : M σ ε α} (h : c → Costs g t b m) (h' : ¬ c → Costs g t b m') :
    Costs g t b (if c then m else m') := by
  split
  · exact h ‹_›
  · exact h' ‹_›

theorem onSnd {S : Type} {m : M σ ε α} (h : Costs g t b m) : Costs (g.snd (S := S)) t b (M.onSnd m) := ⟨fun s => h.run s.2⟩

theorem modify {S : Type} {f : S × σ → S × σ} (h : ∀ s, (f s).2 = s.2) : Costs (g.snd (S := S)) 0 0 (M.modify f : M (S × σ) ε Unit) :=
  ⟨fun s => by
    show g.Spent s.2 (f s).2 0 0
    rw [h]
    exact .refl g s.2 0 0⟩

theorem withLocal {S : Type} {m : M (S × σ) ε α} {x : S} (h : Costs g.snd t b m) : Costs g t b (M.withLocal x m) := by
  constructor
  intro s
  have h1 := h.run (x, s)
  unfold M.withLocal
  rcases hr : m (x, s) with ⟨a | e | _ | _, s'⟩ <;> rw [hr] at h1 <;> exact h1

theorem sliceTo (l : List U8) (n : Nat) : Costs g 0 0 (M.sliceTo l n : M σ ε (List U8)) := .ite (fun _ => .pure _) fun _ => .panic
theorem sliceFrom (l : List U8) (n : Nat) : Costs g 0 0 (M.sliceFrom l n : M σ ε (List U8)) := .ite (fun _ => .pure _) fun _ => .panic

end Costs

/-- With a buffer of `L` bytes, `m` costs at most this, and the buffer keeps its length. -/
structure CostsB (g : Meter σ) (L t b : Nat) (m : M (List U8 × σ) ε α) : Prop where
  run : ∀ s, s.1.length ≤ L → g.Spent s.2 (m s).2.2 t b ∧ (m s).2.1.length = s.1.length

namespace CostsB
variable {g : Meter σ} {L t b t' b' : Nat}

theorem le {m : M (List U8 × σ) ε α} (h : CostsB g L t b m) (ht : t ≤ t') (hb : b ≤ b') : CostsB g L t' b' m :=
  ⟨fun s hs => ⟨(h.run s hs).1.le ht hb, (h.run s hs).2⟩⟩

theorem bind {m : M (List U8 × σ) ε α} {f : α → M (List U8 × σ) ε β} (hm : CostsB g L t b m) (hf : ∀ a, CostsB g L t' b' (f a)) :
    CostsB g L (t + t') (b + b') (m >>= f) := by
  constructor
  intro s hs
  have h1 := hm.run s hs
  rw [M.bind_def]
  rcases hr : m s with ⟨a | e | _ | _, s'⟩
  · rw [hr] at h1
    have h2 := (hf a).run s' (by have := h1.2; dsimp only at this; omega)
    exact ⟨h1.1.trans h2.1, h2.2.trans h1.2⟩
  all_goals rw [hr] at h1; exact ⟨h1.1.le (Nat.le_add_right _ _) (Nat.le_add_right _ _), h1.2⟩

theorem pure (a : α) : CostsB g L 0 0 (pure a : M (List U8 × σ) ε α) := ⟨fun s _ => ⟨.refl g s.2 0 0, rfl⟩⟩
theorem throw (e : ε) : CostsB g L t b (M.throw e : M (List U8 × σ) ε α) := ⟨fun s _ => ⟨.refl g s.2 t b, rfl⟩⟩
theorem panic : CostsB g L t b (M.panic : M (List U8 × σ) ε α) := ⟨fun s _ => ⟨.refl g s.2 t b, rfl⟩⟩
theorem get : CostsB g L 0 0 (M.get : M (List U8 × σ) ε _) := ⟨fun s _ => ⟨.refl g s.2 0 0, rfl⟩⟩

theorem mapErr {m : M (List U8 × σ) ε α} {f : ε → ε'} (h : CostsB g L t b m) : CostsB g L t b (M.mapErr f m) := by
  constructor
  intro s hs
  have h1 := h.run s hs
  unfold M.mapErr
  rcases hr : m s with ⟨a | e | _ | _, s'⟩ <;> rw [hr] at h1 <;> exact h1

theorem ite {c : Prop} [Decidable c] {m m' : M (List U8 × σ) ε α} (h : c → CostsB g L t b m) (h' : ¬ c → CostsB g L t b m') :
    CostsB g L t b (if c then m else m') := by
  split
  · exact h ‹_›
  · exact h' ‹_›

theorem onSnd {m : M σ ε α} (h : Costs g t b m) : CostsB g L t b (M.onSnd m) := ⟨fun s _ => ⟨h.run s.2, rfl⟩⟩

theorem withPrefix {m : M (List U8 × σ) ε α} (n : Nat) (h : CostsB g L t b m) : CostsB g L t b (M.withPrefix n m) := by
  constructor
  intro s hs
  unfold M.withPrefix
  split
  · have h1 := h.run (s.1.take n, s.2) (by rw [List.length_take]; omega)
    refine ⟨h1.1, ?_⟩
    have h2 := h1.2
    dsimp only at h2 ⊢
    rw [List.length_append, h2, List.length_take, List.length_drop]
    omega
  · exact ⟨.refl g s.2 t b, rfl⟩

theorem costs {m : M (List U8 × σ) ε α} {x : List U8} (h : CostsB g L t b m) (hx : x.length ≤ L) : Costs g t b (M.withLocal x m) := by
  constructor
  intro s
  have h1 := (h.run (x, s) hx).1
  unfold M.withLocal
  rcases hr : m (x, s) with ⟨a | e | _ | _, s'⟩ <;> rw [hr] at h1 <;> exact h1

end CostsB

/-! ## Transfers -/

section
variable {g : Meter W} {B : Bus W E} (hB : g.On B)
include hB

theorem co_write (b : U8) (a : U16) (d : List U8) : Costs g 1 d.length (B.write b a d) := ⟨fun s => hB.write s b a d⟩

theorem co_readBuf (b : U8) (a : U16) (d : List U8) : Costs g 1 d.length (B.readBuf b a d) := by
  constructor
  intro s
  have := hB.read s b a d
  unfold Bus.readBuf
  rcases hr : B.readFrame s b a d with ⟨_ | _ | _ | _, d', w⟩ <;> rw [hr] at this <;> exact this

theorem co_readSlice {L : Nat} (b : U8) (a : U16) : CostsB g L 1 L (B.readSlice b a) := by
  constructor
  intro s hs
  refine ⟨?_, B.read_length s.2 b a s.1⟩
  exact Meter.Spent.le (hB.read s.2 b a s.1) (Nat.le_refl _) hs

theorem co_read1 (b : U8) (a : U16) : Costs g 1 1 (B.read1 b a) := by
  refine .bind (t' := 0) (b' := 0) (co_readBuf hB b a [0]) fun d => ?_
  split
  · exact .pure _
  · exact .panic

theorem co_read2 (b : U8) (a : U16) : Costs g 1 2 (B.read2 b a) := by
  refine .bind (t' := 0) (b' := 0) (co_readBuf hB b a [0, 0]) fun d => ?_
  split
  · exact .pure _
  · exact .panic

/-! ## Sockets -/

variable (s : Socket)

theorem co_command (c : Command) : Costs g 1 1 (s.command B c) := co_write hB _ _ [_]
theorem co_resetInterrupt (i : Interrupt) : Costs g 1 1 (s.resetInterrupt B i) := co_write hB _ _ [_]
theorem co_setMode (p : Protocol) : Costs g 1 1 (s.setMode B p) := co_write hB _ _ [_]
theorem co_mask (x : U8) : Costs g 1 1 (s.setInterruptMask B x) := co_write hB _ _ [_]
theorem co_sourcePort (p : U16) : Costs g 1 2 (s.setSourcePort B p) := co_write hB _ _ (toBeBytes p)
theorem co_destPort (p : U16) : Costs g 1 2 (s.setDestinationPort B p) := co_write hB _ _ (toBeBytes p)
theorem co_destIp (a : Ipv4) : Costs g 1 4 (s.setDestinationIp B a) := co_write hB _ _ a.octets
theorem co_setTxWr (p : U16) : Costs g 1 2 (s.setTxWritePointer B p) := co_write hB _ _ (toBeBytes p)
theorem co_setRxRd (p : U16) : Costs g 1 2 (s.setRxReadPointer B p) := co_write hB _ _ (toBeBytes p)
theorem co_status : Costs g 1 1 (s.getStatus B) := co_read1 hB _ _
theorem co_free : Costs g 1 2 (s.getTxFreeSize B) := co_read2 hB _ _
theorem co_txWr : Costs g 1 2 (s.getTxWritePointer B) := co_read2 hB _ _
theorem co_txRd : Costs g 1 2 (s.getTxReadPointer B) := co_read2 hB _ _
theorem co_rxRd : Costs g 1 2 (s.getRxReadPointer B) := co_read2 hB _ _

theorem co_hasInterrupt (i : Interrupt) : Costs g 1 1 (s.hasInterrupt B i) :=
  .bind (co_read1 hB _ _) fun _ => .pure _

theorem co_receiveSize (fuel : Nat) : Costs g (2 * fuel) (4 * fuel) (s.getReceiveSize B fuel) := by
  induction fuel with
  | zero => exact .fuel
  | succ fuel ih =>
    refine .le (.bind (co_read2 hB _ _) fun _ => .bind (co_read2 hB _ _) fun _ => .ite (fun _ => (Costs.pure _).le (Nat.zero_le _) (Nat.zero_le _))
      fun _ => ih) ?_ ?_ <;> omega

theorem co_waitSendOk (fuel : Nat) : Costs g fuel fuel (RawDevice.waitSendOk B s fuel) := by
  induction fuel with
  | zero => exact .fuel
  | succ fuel ih =>
    refine .le (.bind (co_hasInterrupt hB s _) fun _ => .ite (fun _ => (Costs.pure _).le (Nat.zero_le _) (Nat.zero_le _))
      fun _ => ih) ?_ ?_ <;> omega

/-! ## TCP -/

variable (t : TcpSocket)

theorem co_tcpReopen : Costs g 5 5 (t.reopen B) :=
  .mapErr (.bind (co_command hB _ _) fun _ => .bind (co_resetInterrupt hB _ _) fun _ => .bind (co_setMode hB _ _) fun _ =>
    .bind (co_mask hB _ _) fun _ => co_command hB _ _)

theorem co_tcpOpen (p : U16) : Costs g 6 7 (t.open B p) :=
  .mapErr (.bind (co_command hB _ _) fun _ => .bind (co_resetInterrupt hB _ _) fun _ => .bind (co_sourcePort hB _ _) fun _ =>
    .bind (co_setMode hB _ _) fun _ => .bind (co_mask hB _ _) fun _ => co_command hB _ _)

theorem co_tcpClose : Costs g 2 2 (t.socketClose B) :=
  .mapErr (.bind (co_setMode hB _ _) fun _ => co_command hB _ _)

theorem co_connectLoop (fuel : Nat) : Costs g (fuel + 7) (fuel + 7) (t.connectLoop B fuel) := by
  induction fuel with
  | zero => exact .fuel
  | succ fuel ih =>
    refine .le (t := 1 + (fuel + 7)) (b := 1 + (fuel + 7)) (.bind (.mapErr (co_read1 hB _ _)) fun st => ?_) (by omega) (by omega)
    split
    · exact (Costs.pure _).le (Nat.zero_le _) (Nat.zero_le _)
    · exact .le (.bind (co_tcpClose hB t) fun _ => co_tcpReopen hB t) (by omega) (by omega)
    · exact ih

theorem co_socketConnect (fuel : Nat) (remote : SockAddr4) : Costs g (fuel + 18) (fuel + 22) (t.socketConnect B fuel remote) := by
  have tail : Costs g (3 + (fuel + 7)) (7 + (fuel + 7)) (do
      M.mapErr TcpSocketError.other (t.socket.setDestinationIp B remote.ip)
      M.mapErr .other (t.socket.setDestinationPort B remote.port)
      M.mapErr .other (t.socket.command B .connect)
      t.connectLoop B fuel) :=
    .le (.bind (.mapErr (co_destIp hB _ _)) fun _ => .bind (.mapErr (co_destPort hB _ _)) fun _ =>
      .bind (.mapErr (co_command hB _ _)) fun _ => co_connectLoop hB t fuel) (by omega) (by omega)
  unfold TcpSocket.socketConnect
  refine .le (t := 1 + (7 + (3 + (fuel + 7)))) (b := 1 + (7 + (7 + (fuel + 7)))) (.bind (.mapErr (co_read1 hB _ _)) fun st => ?_) (by omega) (by omega)
  dsimp only
  split
  · exact tail.le (by omega) (by omega)
  · exact .throw _
  · exact .throw _
  · exact .throw _
  · exact .le (.bind (co_tcpClose hB t) fun _ => .bind (co_tcpReopen hB t) fun _ => tail) (by omega) (by omega)

theorem co_tcpSend (fuel : Nat) (data : List U8) : Costs g (fuel + 7) (fuel + data.length + 9) (t.socketSend B fuel data) := by
  have slice : ∀ (k : Nat) (f : List U8 → M W (TcpSocketError E) Nat) (n m : Nat),
      (∀ l, l.length ≤ data.length → Costs g n m (f l)) →
      Costs g n m (M.sliceTo data k >>= f) := by
    intro k f n m h
    unfold M.sliceTo
    split
    · exact h _ (by rw [List.length_take]; omega)
    · exact .panic
  have tail : ∀ l : List U8, l.length ≤ data.length → Costs g (fuel + 5) (fuel + data.length + 6) (do
      let writePointer ← M.mapErr TcpSocketError.other (t.socket.getTxWritePointer B)
      M.mapErr .other (B.write t.socket.txBuffer writePointer l)
      M.mapErr .other (t.socket.setTxWritePointer B (writePointer + BitVec.ofNat 16 l.length))
      M.mapErr .other (t.socket.command B .send)
      M.mapErr .other (RawDevice.waitSendOk B t.socket fuel)
      M.mapErr .other (t.socket.resetInterrupt B .sendOk)
      pure l.length) := fun l hl =>
    .le (.bind (.mapErr (co_txWr hB _)) fun p => .bind (.mapErr (co_write hB _ _ l)) fun _ => .bind (.mapErr (co_setTxWr hB _ _))
      fun _ => .bind (.mapErr (co_command hB _ _)) fun _ => .bind (.mapErr (co_waitSendOk hB _ fuel)) fun _ =>
      .bind (.mapErr (co_resetInterrupt hB _ _)) fun _ => .pure _) (by omega) (by omega)
  unfold TcpSocket.socketSend TcpSocket.socketIsConnected
  refine .le (t := (1 + 0) + (1 + (fuel + 5))) (b := (1 + 0) + (2 + (fuel + data.length + 6)))
    (.bind (.bind (.mapErr (co_status hB _)) fun _ => .pure _) fun c => ?_) (by omega) (by omega)
  refine .ite (fun _ => .throw _) fun _ => .bind (.mapErr (co_free hB _)) fun v => ?_
  dsimp only
  split
  · exact tail data (Nat.le_refl _)
  · exact slice _ _ _ _ tail

theorem co_tcpReceive (fuel L : Nat) : CostsB g L (2 * fuel + 7) (4 * fuel + L + 8) (t.socketReceive B fuel) := by
  unfold TcpSocket.socketReceive TcpSocket.socketIsConnected
  refine .le (t := (1 + 0) + (1 + (2 * fuel + 5))) (b := (1 + 0) + (1 + (4 * fuel + L + 6)))
    (.bind (.onSnd (.bind (.mapErr (co_status hB _)) fun _ => .pure _)) fun c => ?_) (by omega) (by omega)
  refine .ite (fun _ => .throw _) fun _ => .bind (.onSnd (.mapErr (co_hasInterrupt hB _ _))) fun i => ?_
  refine .ite (fun _ => (CostsB.pure _).le (Nat.zero_le _) (Nat.zero_le _)) fun _ => ?_
  exact .le (.bind (.onSnd (.mapErr (co_receiveSize hB _ fuel))) fun v => .bind .get fun x =>
    .bind (.onSnd (.mapErr (co_rxRd hB _))) fun p => .bind (.withPrefix _ (.mapErr (co_readSlice hB _ _))) fun _ =>
    .bind (.onSnd (.mapErr (co_setRxRd hB _ _))) fun _ => .bind (.onSnd (.mapErr (co_command hB _ _))) fun _ =>
    .bind (.onSnd (.mapErr (co_resetInterrupt hB _ _))) fun _ => .pure _) (by omega) (by omega)

/-! ## UDP -/

variable (u : UdpSocket)

theorem co_udpOpen : Costs g 6 7 (u.open B) :=
  .bind (co_command hB _ _) fun _ => .bind (co_resetInterrupt hB _ _) fun _ => .bind (co_sourcePort hB _ _) fun _ =>
    .bind (co_setMode hB _ _) fun _ => .bind (co_mask hB _ _) fun _ => co_command hB _ _

theorem co_udpClose : Costs g 2 2 (u.socketClose B) :=
  .mapErr (.bind (co_setMode hB _ _) fun _ => co_command hB _ _)

theorem co_setPort (p : U16) : Costs g.snd 1 2 (UdpSocket.setPort B p) := by
  unfold UdpSocket.setPort
  exact .le (.bind (.modify fun _ => rfl) fun _ => .bind .get fun _ => .mapErr (.onSnd (co_sourcePort hB _ _)))
    (by omega) (by omega)

theorem co_setDestination (a : SockAddr4) : Costs g.snd 2 6 (UdpSocket.setDestination B a) := by
  unfold UdpSocket.setDestination
  refine .le (t := 0 + 2) (b := 0 + 6) (.bind .get fun s => ?_) (by omega) (by omega)
  dsimp only
  refine .ite (fun _ => ?_) fun _ => (Costs.pure _).le (Nat.zero_le _) (Nat.zero_le _)
  exact .le (.bind (.mapErr (.onSnd (co_destIp hB _ _))) fun _ => .bind (.mapErr (.onSnd (co_destPort hB _ _))) fun _ =>
    .modify fun _ => rfl) (by omega) (by omega)

theorem co_checkStatus : Costs g 1 1 (u.checkStatus B) := by
  refine .bind (t' := 0) (b' := 0) (.mapErr (co_status hB _)) fun st => ?_
  split
  · exact .pure _
  · exact .throw _
  · exact .throw _

/-- One round of the flush loop; it is cheaper if there is another. -/
theorem co_tryFlush (w : W) : g.Spent w (u.tryFlushTx B w).2 5 7 ∧
    ((u.tryFlushTx B w).1 = .err .wouldBlock → g.Spent w (u.tryFlushTx B w).2 2 4) := by
  have h1 := (Costs.mapErr (f := NbError.ofBus) (co_txRd hB u.socket)).run w
  unfold UdpSocket.tryFlushTx
  rw [M.bind_def]
  rcases hr : M.mapErr NbError.ofBus (u.socket.getTxReadPointer B) w with ⟨a | e | _ | _, w1⟩
  · rw [hr] at h1
    have h2 := (Costs.mapErr (f := NbError.ofBus) (co_txWr hB u.socket)).run w1
    dsimp only
    rw [M.bind_def]
    rcases hr2 : M.mapErr NbError.ofBus (u.socket.getTxWritePointer B) w1 with ⟨a' | e | _ | _, w2⟩
    · rw [hr2] at h2
      dsimp only
      split
      · have tail : Costs g 3 3 (do
            if ← M.mapErr NbError.ofBus (u.socket.hasInterrupt B .sendOk) then
              M.mapErr NbError.ofBus (u.socket.resetInterrupt B .sendOk)
            else if ← M.mapErr NbError.ofBus (u.socket.hasInterrupt B .timeout) then
              M.mapErr NbError.ofBus (u.socket.resetInterrupt B .timeout)
              M.throw (.other .writeTimeout)
            else pure () : M W (NbError (UdpSocketError E)) Unit) := by
          refine .le (t := 1 + 2) (b := 1 + 2) (.bind (.mapErr (co_hasInterrupt hB _ _)) fun x => .ite (fun _ =>
            (Costs.mapErr (co_resetInterrupt hB _ _)).le (by omega) (by omega)) fun _ => ?_) (Nat.le_refl _) (Nat.le_refl _)
          refine .bind (t := 1) (t' := 1) (b := 1) (b' := 1) (.mapErr (co_hasInterrupt hB _ _)) fun y => .ite (fun _ => ?_) fun _ =>
            (Costs.pure _).le (Nat.zero_le _) (Nat.zero_le _)
          exact .bind (t' := 0) (b' := 0) (.mapErr (co_resetInterrupt hB _ _)) fun _ => .throw _
        refine ⟨(h1.trans h2).trans (tail.run w2), ?_⟩
        intro he
        have tail' : ErrIn (fun e => e ≠ NbError.wouldBlock) (do
            if ← M.mapErr NbError.ofBus (u.socket.hasInterrupt B .sendOk) then
              M.mapErr NbError.ofBus (u.socket.resetInterrupt B .sendOk)
            else if ← M.mapErr NbError.ofBus (u.socket.hasInterrupt B .timeout) then
              M.mapErr NbError.ofBus (u.socket.resetInterrupt B .timeout)
              M.throw (.other .writeTimeout)
            else pure () : M W (NbError (UdpSocketError E)) Unit) :=
          .bind (.mapErr _ fun _ => nofun) fun x => .ite (fun _ => .mapErr _ fun _ => nofun) fun _ =>
            .bind (.mapErr _ fun _ => nofun) fun y => .ite (fun _ => .bind (.mapErr _ fun _ => nofun) fun _ => .throw nofun)
              fun _ => .pure _
        exact absurd rfl (tail'.run w2 _ he)
      · exact ⟨(h1.trans h2).le (by omega) (by omega), fun _ => h1.trans h2⟩
    · rw [hr2] at h2; exact ⟨(h1.trans h2).le (by omega) (by omega), fun _ => h1.trans h2⟩
    · rw [hr2] at h2; exact ⟨(h1.trans h2).le (by omega) (by omega), fun _ => h1.trans h2⟩
    · rw [hr2] at h2; exact ⟨(h1.trans h2).le (by omega) (by omega), fun _ => h1.trans h2⟩
  all_goals
    rw [hr] at h1
    exact ⟨h1.le (by omega) (by omega), fun _ => h1.le (by omega) (by omega)⟩

theorem co_flushLoop (fuel : Nat) : Costs g (2 * fuel + 3) (4 * fuel + 3) (u.flushLoop B fuel) := by
  induction fuel with
  | zero => exact .fuel
  | succ fuel ih =>
    constructor
    intro w
    obtain ⟨h1, h2⟩ := co_tryFlush hB u w
    unfold UdpSocket.flushLoop
    rcases hr : u.tryFlushTx B w with ⟨a | (e | _) | _ | _, w1⟩
    case succ.err.wouldBlock =>
      rw [hr] at h2
      exact Meter.Spent.le ((h2 rfl).trans (ih.run w1)) (by omega) (by omega)
    all_goals rw [hr] at h1; exact h1.le (by omega) (by omega)

theorem co_blockSend (fuel : Nat) : Costs g (2 * fuel + 4) (4 * fuel + 4) (u.blockSendCommand B fuel) :=
  .le (.bind (.mapErr (co_command hB _ _)) fun _ => co_flushLoop hB u fuel) (by omega) (by omega)

omit hB in
/-- `m` costs at most `t` transfers and `b + n` bytes, for an `n ≤ N` that is the result if there is one. -/
def Pays (g : Meter W) (N t b : Nat) (m : M W ε Nat) : Prop :=
  ∀ w, ∃ n, n ≤ N ∧ g.Spent w (m w).2 t (b + n) ∧ ∀ k, (m w).1 = .ok k → k = n

omit hB in
theorem Pays.bind {N t b t' b' : Nat} {m : M W ε α} {f : α → M W ε Nat} (hm : Costs g t b m) (hf : ∀ a, Pays g N t' b' (f a)) :
    Pays g N (t + t') (b + b') (m >>= f) := by
  intro w
  have h1 := hm.run w
  rw [M.bind_def]
  rcases hr : m w with ⟨a | e | _ | _, w1⟩ <;> rw [hr] at h1
  · obtain ⟨n, hn, h2, h3⟩ := hf a w1
    exact ⟨n, hn, (h1.trans h2).le (Nat.le_refl _) (by omega), h3⟩
  all_goals exact ⟨0, Nat.zero_le _, h1.le (by omega) (by omega), nofun⟩

omit hB in
theorem Pays.none {N t b : Nat} {m : M W ε Nat} (h : ∀ w, ∀ k, (m w).1 ≠ .ok k) (hm : Costs g t b m) : Pays g N t b m :=
  fun w => ⟨0, Nat.zero_le _, (hm.run w).le (Nat.le_refl _) (Nat.le_refl _), fun k hk => absurd hk (h w k)⟩

omit hB in
theorem Pays.le {N t b t' b' : Nat} {m : M W ε Nat} (h : Pays g N t b m) (ht : t ≤ t') (hb : b ≤ b') : Pays g N t' b' m := by
  intro w
  obtain ⟨n, hn, h2, h3⟩ := h w
  exact ⟨n, hn, h2.le ht (by omega), h3⟩

omit hB in
theorem bind_result {m : M W ε α} {f : α → M W ε β} {w : W} {k : β} (h : ((m >>= f) w).1 = .ok k) :
    ∃ a w', (f a w').1 = .ok k := by
  rw [M.bind_def] at h
  rcases hr : m w with ⟨a | e | _ | _, w1⟩ <;> rw [hr] at h
  · exact ⟨a, w1, h⟩
  all_goals exact nomatch h

/-- What is accepted is what is paid for. -/
theorem co_udpSocketSend (fuel : Nat) (data : List U8) : Pays g data.length (2 * fuel + 9) (4 * fuel + 11) (u.socketSend B fuel data) := by
  have tail : ∀ l : List U8, l.length ≤ data.length → Pays g data.length (2 * fuel + 7) (4 * fuel + 8) (do
      let writePointer ← M.mapErr NbError.ofBus (u.socket.getTxWritePointer B)
      M.mapErr NbError.ofBus (B.write u.socket.txBuffer writePointer l)
      M.mapErr NbError.ofBus (u.socket.setTxWritePointer B (writePointer + BitVec.ofNat 16 l.length))
      u.blockSendCommand B fuel
      pure l.length) := by
    intro l hl w
    refine ⟨l.length, hl, ?_, ?_⟩
    · exact (Costs.le (.bind (.mapErr (co_txWr hB _)) fun p => .bind (.mapErr (co_write hB _ _ l)) fun _ =>
        .bind (.mapErr (co_setTxWr hB _ _)) fun _ => .bind (co_blockSend hB u fuel) fun _ => .pure _) (by omega) (by omega)).run w
    · intro k hk
      obtain ⟨_, _, hk⟩ := bind_result hk
      obtain ⟨_, _, hk⟩ := bind_result hk
      obtain ⟨_, _, hk⟩ := bind_result hk
      obtain ⟨_, _, hk⟩ := bind_result hk
      exact (Res.ok.inj hk).symm
  have slice : ∀ (k : Nat) (f : List U8 → M W (NbError (UdpSocketError E)) Nat) (n m : Nat),
      (∀ l, l.length ≤ data.length → Pays g data.length n m (f l)) →
      Pays g data.length n m (M.sliceTo data k >>= f) := by
    intro k f n m h
    unfold M.sliceTo
    split
    · exact h _ (by rw [List.length_take]; omega)
    · exact .none (fun _ _ => nofun) .panic
  unfold UdpSocket.socketSend
  refine .le (t := 1 + (1 + (2 * fuel + 7))) (b := 1 + (2 + (4 * fuel + 8))) (.bind (co_checkStatus hB u) fun _ => ?_)
    (by omega) (by omega)
  split
  · exact .none (fun _ _ => nofun) (.throw _)
  refine .bind (.mapErr (co_free hB _)) fun v => ?_
  split
  · exact .none (fun _ _ => nofun) (.throw _)
  split
  · exact tail data (Nat.le_refl _)
  · exact slice _ _ _ _ tail

theorem co_sendAllLoop (fuel : Nat) (data : List U8) (n : Nat) : ∀ (free : U16) (sent : Nat),
    Costs g (n * (2 * fuel + 10)) (n * (4 * fuel + 13) + (data.length - sent)) (u.sendAllLoop B fuel data n free sent) := by
  induction n with
  | zero => exact fun _ _ => .fuel
  | succ n ih =>
    intro free sent
    rw [show (n + 1) * (2 * fuel + 10) = n * (2 * fuel + 10) + (2 * fuel + 10) from Nat.succ_mul _ _,
      show (n + 1) * (4 * fuel + 13) = n * (4 * fuel + 13) + (4 * fuel + 13) from Nat.succ_mul _ _]
    unfold UdpSocket.sendAllLoop
    refine .ite (fun _ => (Costs.pure _).le (Nat.zero_le _) (Nat.zero_le _)) fun _ => ?_
    unfold M.sliceFrom
    split
    case isFalse => exact .panic
    rename_i hle
    show Costs g _ _ (M.sliceTo (data.drop sent) (min free.toNat (data.drop sent).length) >>= _)
    unfold M.sliceTo
    rw [if_pos (Nat.min_le_right _ _)]
    show Costs g _ _ (u.socketSend B fuel ((data.drop sent).take (min free.toNat (data.drop sent).length)) >>= _)
    constructor
    intro w
    obtain ⟨k, hk, h1, h2⟩ := co_udpSocketSend hB u fuel ((data.drop sent).take (min free.toNat (data.drop sent).length)) w
    rw [List.length_take, List.length_drop] at hk
    rw [M.bind_def]
    rcases hr : u.socketSend B fuel ((data.drop sent).take (min free.toNat (data.drop sent).length)) w with ⟨a | e | _ | _, w1⟩ <;>
      rw [hr] at h1 h2
    · obtain rfl := h2 a rfl
      exact Meter.Spent.le (h1.trans ((Costs.bind (Costs.mapErr (f := NbError.ofBus) (co_free hB u.socket)) fun v => ih v (sent + a)).run w1))
        (by omega) (by omega)
    all_goals exact h1.le (by omega) (by omega)

theorem co_udpSendAll (fuel : Nat) (data : List U8) :
    Costs g (fuel * (2 * fuel + 10) + 2) (fuel * (4 * fuel + 13) + data.length + 3) (u.socketSendAll B fuel data) := by
  unfold UdpSocket.socketSendAll
  refine .le (t := 1 + (1 + fuel * (2 * fuel + 10))) (b := 1 + (2 + (fuel * (4 * fuel + 13) + data.length)))
    (.bind (co_checkStatus hB u) fun _ => .ite (fun _ => .throw _) fun _ => .bind (.mapErr (co_free hB _)) fun v =>
      .ite (fun _ => .throw _) fun _ => co_sendAllLoop hB u fuel data fuel v 0) (by omega) (by omega)

theorem co_udpSendTo (fuel : Nat) (remote : SockAddr4) (data : List U8) :
    Costs g.snd (fuel * (2 * fuel + 10) + 4) (fuel * (4 * fuel + 13) + data.length + 9) (UdpSocket.socketSendTo B fuel remote data) := by
  unfold UdpSocket.socketSendTo
  exact .le (.bind (.mapErr (co_setDestination hB remote)) fun _ => .bind .get fun s => .onSnd (co_udpSendAll hB s.1 fuel data))
    (by omega) (by omega)

theorem co_udpReceive (fuel L : Nat) : CostsB g L (2 * fuel + 8) (4 * fuel + L + 16) (u.socketReceive B fuel) := by
  unfold UdpSocket.socketReceive
  refine .le (t := 1 + (1 + (2 * fuel + 6))) (b := 1 + (1 + (4 * fuel + L + 14)))
    (.bind (.onSnd (co_checkStatus hB u)) fun _ => .bind (.onSnd (.mapErr (co_hasInterrupt hB _ _))) fun i => ?_) (by omega) (by omega)
  refine .ite (fun _ => .throw _) fun _ => ?_
  refine .le (t := 2 * fuel + (0 + (1 + (1 + 4)))) (b := 4 * fuel + (0 + (2 + (8 + (L + 4)))))
    (.bind (.onSnd (.mapErr (co_receiveSize hB _ fuel))) fun v => .ite (fun _ => .throw _) fun _ => .bind .get fun x =>
    .ite (fun _ => .throw _) fun _ => .bind (.onSnd (.mapErr (co_rxRd hB _))) fun p =>
    .bind (.onSnd (.mapErr (co_readBuf hB _ _ [0, 0, 0, 0, 0, 0, 0, 0]))) fun h => ?_) (by omega) (by omega)
  dsimp only
  split
  · exact .panic
  · exact .le (.bind (.withPrefix _ (.mapErr (co_readSlice hB _ _))) fun _ =>
      .bind (.onSnd (.mapErr (co_setRxRd hB _ _))) fun _ => .bind (.onSnd (.mapErr (co_command hB _ _))) fun _ =>
      .bind (.onSnd (.mapErr (co_resetInterrupt hB _ _))) fun _ => .pure _) (by omega) (by omega)

/-! ## MACRAW -/

variable (r : RawDevice)

theorem co_clearBuffers (l : List U8) : Costs g (2 * l.length) (2 * l.length) (RawDevice.clearBuffers B l) := by
  induction l with
  | nil => exact .pure _
  | cons i l ih =>
    exact .le (.bind (co_write hB _ _ [0]) fun _ => .bind (co_write hB _ _ [0]) fun _ => ih)
      (by simp only [List.length_cons]; omega) (by simp only [List.length_cons, List.length_nil]; omega)

theorem co_rawNew : Costs g 18 18 (RawDevice.new B) :=
  .mapErr (.le (.bind (co_write hB _ _ [16]) fun _ => .bind (co_write hB _ _ [16]) fun _ => .bind (co_clearBuffers hB [1, 2, 3, 4, 5, 6, 7])
    fun _ => .bind (co_write hB _ _ [_]) fun _ => .bind (co_command hB _ _) fun _ => .pure _) (by decide) (by decide))

theorem co_rxNew (fuel : Nat) : Costs g (2 * fuel + 1) (4 * fuel + 2) (RxCursor.new B fuel s) :=
  .bind (co_receiveSize hB s fuel) fun _ => .bind (co_rxRd hB s) fun _ => .pure _

theorem co_rxRead (L : Nat) (c : RxCursor) : CostsB g L 1 L (c.read B) := by
  unfold RxCursor.read
  refine .le (t := 0 + 1) (b := 0 + L) (.bind .get fun x => .ite (fun _ => (CostsB.pure _).le (Nat.zero_le _) (Nat.zero_le _)) fun _ => ?_)
    (by omega) (by omega)
  exact .bind (.withPrefix _ (co_readSlice hB _ _)) fun _ => .pure _

theorem co_readUpto (L : Nat) (c : RxCursor) (m : U16) : CostsB g L 1 L (c.readUpto B m) := by
  unfold RxCursor.readUpto
  exact .le (.bind .get fun x => .ite (fun _ => .withPrefix _ (co_rxRead hB L c)) fun _ => co_rxRead hB L c)
    (by omega) (by omega)

theorem co_rawRead (fuel L : Nat) : CostsB g L (2 * fuel + 5) (4 * fuel + L + 7) (r.readFrame B fuel) := by
  unfold RawDevice.readFrame
  refine .le (t := (2 * fuel + 1) + (1 + 3)) (b := (4 * fuel + 2) + (2 + (L + 3))) (.bind (.onSnd (co_rxNew hB _ fuel)) fun c =>
    .ite (fun _ => (CostsB.pure _).le (Nat.zero_le _) (Nat.zero_le _)) fun _ =>
    .bind (.onSnd ((co_rxRead hB 2 c).costs (Nat.le_refl _))) fun x => ?_) (by omega) (by omega)
  dsimp only
  refine .ite (fun _ => .panic) fun _ => ?_
  split
  · exact .le (.bind (co_readUpto hB L _ _) fun y => .bind (.onSnd (.bind (co_setRxRd hB _ _) fun _ => co_command hB _ _)) fun _ => .pure _)
      (by omega) (by omega)
  · exact .panic

theorem co_txNew : Costs g 2 4 (TxCursor.new B s) :=
  .bind (co_free hB s) fun _ => .bind (co_txWr hB s) fun _ => .pure _

theorem co_txWrite (c : TxCursor) (l : List U8) : Costs g 1 l.length (c.write B l) := by
  unfold TxCursor.write
  refine .ite (fun _ => (Costs.pure _).le (Nat.zero_le _) (Nat.zero_le _)) fun _ => ?_
  dsimp only
  unfold M.sliceTo
  split
  · refine .le (t := 1) (b := (l.take (BitVec.ofNat 16 l.length).toNat).length) ?_ (by omega) (by rw [List.length_take]; omega)
    exact .bind (co_write hB _ _ (l.take (BitVec.ofNat 16 l.length).toNat)) fun _ => .pure _
  · exact .panic

theorem co_rawWrite (fuel : Nat) (frame : List U8) : Costs g (fuel + 6) (fuel + frame.length + 8) (r.writeFrame B fuel frame) := by
  unfold RawDevice.writeFrame
  exact .le (.bind (co_resetInterrupt hB _ _) fun _ => .bind (co_txNew hB _) fun c => .bind (co_txWrite hB c frame) fun y =>
    .bind (.bind (co_setTxWr hB _ _) fun _ => co_command hB _ _) fun _ => .bind (co_waitSendOk hB _ fuel) fun _ => .pure _)
    (by omega) (by omega)

theorem co_rawEnable (x : U8) : Costs g 2 2 (r.enableInterrupts B x) := .bind (co_mask hB _ _) fun _ => co_write hB _ _ [_]
theorem co_rawDisable : Costs g 2 2 (r.disableInterrupts B) := .bind (co_write hB _ _ [_]) fun _ => co_mask hB _ _
theorem co_rawClear : Costs g 1 1 (r.clearInterrupts B) := co_resetInterrupt hB _ _

/-! ## Initialisation and settings -/

theorem co_readIp (a : U16) : Costs g 1 4 (readIp B a) := by
  refine .bind (t' := 0) (b' := 0) (co_readBuf hB _ _ [0, 0, 0, 0]) fun d => ?_
  split
  · exact .pure _
  · exact .panic

theorem co_mac : Costs g 1 6 (Device.mac B) := by
  refine .bind (t' := 0) (b' := 0) (co_readBuf hB _ _ [0, 0, 0, 0, 0, 0]) fun d => ?_
  split
  · exact .pure _
  · exact .panic

theorem co_retry : Costs g 1 2 (currentRetryTimeout B) := by
  refine .bind (t' := 0) (b' := 0) (co_readBuf hB _ _ [0, 0]) fun d => ?_
  split
  · exact .pure _
  · exact .panic

theorem co_writeSettings (settings : HostConfig) : Costs g.snd 4 18 (writeSettings B settings) := by
  have step : ∀ (a : U16) (l : List U8) (f : HostConfig × W → HostConfig × W) (c : Prop) (_ : Decidable c)
      (n m : Nat) (k : Unit → M (HostConfig × W) E Unit), (∀ s, (f s).2 = s.2) → Costs g.snd n m (k ()) →
      Costs g.snd (1 + n) (l.length + m) (if c then (do M.onSnd (B.write COMMON a l); let r ← M.modify f; k r) else k ()) := by
    intro a l f c _ n m k hf hk
    refine .ite (fun _ => ?_) fun _ => hk.le (by omega) (by omega)
    exact .le (.bind (.onSnd (co_write hB _ _ l)) fun _ => .bind (.modify hf) fun _ => hk) (by omega) (by omega)
  unfold writeSettings
  refine .le (t := 0 + (1 + (0 + (1 + (0 + (1 + (0 + 1))))))) (b := 0 + (4 + (0 + (4 + (0 + (6 + (0 + 4)))))))
    (.bind .get fun s1 => ?_) (by omega) (by omega)
  refine step common.GATEWAY settings.gateway.octets _ _ _ _ _ _ (fun _ => rfl) ?_
  refine .bind .get fun s2 => ?_
  refine step common.SUBNET_MASK settings.subnet.octets _ _ _ _ _ _ (fun _ => rfl) ?_
  refine .bind .get fun s3 => ?_
  refine step common.MAC settings.mac.octets _ _ _ _ _ _ (fun _ => rfl) ?_
  refine .bind .get fun s4 => ?_
  refine .ite (fun _ => ?_) fun _ => (Costs.pure _).le (Nat.zero_le _) (Nat.zero_le _)
  exact .le (.bind (.onSnd (co_write hB _ _ settings.ip.octets)) fun _ => .modify fun _ => rfl) (Nat.le_refl _) (Nat.le_refl _)

theorem co_refresh : Costs g.snd 4 18 (Manual.refresh B) := by
  unfold Manual.refresh
  refine .le (t := 0 + (4 + 0)) (b := 0 + (18 + 0)) (.bind .get fun s => .ite (fun _ => .bind ⟨fun m => ?_⟩ fun _ => .modify fun _ => rfl)
    fun _ => (Costs.pure _).le (Nat.zero_le _) (Nat.zero_le _)) (by omega) (by omega)
  exact (co_writeSettings hB s.1.settings).run (m.1.current, m.2)

theorem co_init {H : Type} [Host H] {t b : Nat} (hH : Costs (g.snd (S := H)) t b (Host.refresh B)) (a : Bool) (host : H) (mode : Mode) :
    Costs g (t + 3) (b + 3) (Uninit.initializeWithHost a B host mode) := by
  have assert : Costs g 1 1 (Uninit.assertChipVersion B 4) :=
    .bind (t' := 0) (b' := 0) (.mapErr (co_read1 hB _ _)) fun v => .ite (fun _ => .throw _) fun _ => .pure _
  have tail : Costs g (t + 2) (b + 2) (do
      M.mapErr InitializeError.spiError (resetChip B)
      M.mapErr .spiError (setMode B mode)
      let (_, host) ← M.mapErr .spiError (M.withLocal host (Host.refresh B))
      pure (DeviceState.new host)) :=
    .le (.bind (.mapErr (co_write hB _ _ [_])) fun _ => .bind (.mapErr (co_write hB _ _ [_])) fun _ =>
      .bind (.mapErr (.withLocal hH)) fun _ => .pure _) (by omega) (by simp only [List.length_cons, List.length_nil]; omega)
  unfold Uninit.initializeWithHost
  split
  · exact .le (.bind assert fun _ => tail) (by omega) (by omega)
  · exact tail.le (by omega) (by omega)

theorem co_initMacraw (m : Mac) : Costs g 20 25 (Uninit.initializeMacraw B m) :=
  .bind (.mapErr (co_write hB _ _ [_])) fun _ => .bind (.mapErr (co_write hB _ _ m.octets)) fun _ => co_rawNew hB

end

/-! ## The trait methods -/

theorem Meter.log_on (B : Bus W E) : (Meter.log (W := W) (E := E)).On (traced B) := by
  constructor
  · intro w b a d
    refine ⟨by show (w.log ++ _).length ≤ w.log.length + 1; rw [List.length_append]; exact Nat.le_refl _, ?_⟩
    show ((w.log ++ [_]).map fun e : Ev E => e.data.length).sum ≤ (w.log.map fun e : Ev E => e.data.length).sum + d.length
    rw [List.map_append, List.sum_append_nat]
    exact Nat.add_le_add_left (Nat.le_of_eq ((Nat.add_zero _).trans (B.read_length w.w b a d))) _
  · intro w b a d
    refine ⟨by show (w.log ++ _).length ≤ w.log.length + 1; rw [List.length_append]; exact Nat.le_refl _, ?_⟩
    show ((w.log ++ [_]).map fun e : Ev E => e.data.length).sum ≤ (w.log.map fun e : Ev E => e.data.length).sum + d.length
    rw [List.map_append, List.sum_append_nat]
    exact Nat.add_le_add_left (Nat.le_refl d.length) _

namespace Chip
variable {sched : Nat → List (Nat × Act)} {faults : Nat → Option (E × Nat)}

theorem foldl_txn (l : List (Nat × Act)) (c : Chip) : (l.foldl event c).txn = c.txn := by
  induction l generalizing c with
  | nil => rfl
  | cons e l ih => rw [List.foldl_cons, ih]; rfl

theorem tick_txn (c : Chip) : (c.tick sched).txn = c.txn := foldl_txn _ _

theorem poke_txn (c : Chip) (b : BitVec 5) (a : U16) (x : U8) : (c.poke b a x).txn = c.txn := by
  unfold poke pokeCommon setSock
  repeat' split
  all_goals rfl

theorem writeBytes_txn (l : List U8) (c : Chip) (b : BitVec 5) (a : U16) :
    ((dev sched faults).writeBytes c b a l).txn = c.txn := by
  induction l generalizing c a with
  | nil => rfl
  | cons x l ih =>
    show ((dev sched faults).writeBytes ((c.tick sched).poke b a x) b (a + 1) l).txn = _
    rw [ih, poke_txn, tick_txn]

theorem readBytes_txn (c : Chip) (b : BitVec 5) (a : U16) (n : Nat) :
    ((dev sched faults).readBytes c b a n).2.txn = c.txn := by
  induction n generalizing c a with
  | zero => rfl
  | succ n ih =>
    show ((dev sched faults).readBytes (c.tick sched) b (a + 1) n).2.txn = _
    rw [ih, tick_txn]

end Chip

theorem Meter.chip_on (sched : Nat → List (Nat × Act)) (faults : Nat → Option (E × Nat)) :
    Meter.chip.On (Chip.dev sched faults).bus := by
  constructor
  · intro w b a d
    simp only [ByteDev.bus]
    split
    · rename_i c hc
      have : c = { w with txn := w.txn + 1 } := by simp only [Chip.dev, Prod.mk.injEq] at hc; exact hc.2.symm
      subst this
      exact ⟨Nat.le_of_eq (Chip.readBytes_txn _ _ _ _), Nat.le_of_eq (Chip.readBytes_clock _ _ _ _)⟩
    · rename_i e k c hc
      have : c = { w with txn := w.txn + 1 } := by simp only [Chip.dev, Prod.mk.injEq] at hc; exact hc.2.symm
      subst this
      refine ⟨Nat.le_of_eq (Chip.readBytes_txn _ _ _ _), ?_⟩
      show Chip.clock _ ≤ w.clock + d.length
      rw [Chip.readBytes_clock]
      exact Nat.add_le_add_left (Nat.min_le_right _ _) _
  · intro w b a d
    simp only [ByteDev.bus]
    split
    · rename_i c hc
      have : c = { w with txn := w.txn + 1 } := by simp only [Chip.dev, Prod.mk.injEq] at hc; exact hc.2.symm
      subst this
      exact ⟨Nat.le_of_eq (Chip.writeBytes_txn _ _ _ _), Nat.le_of_eq (Chip.writeBytes_clock _ _ _ _)⟩
    · rename_i e k c hc
      have : c = { w with txn := w.txn + 1 } := by simp only [Chip.dev, Prod.mk.injEq] at hc; exact hc.2.symm
      subst this
      refine ⟨Nat.le_of_eq (Chip.writeBytes_txn _ _ _ _), ?_⟩
      show Chip.clock _ ≤ w.clock + d.length
      rw [Chip.writeBytes_clock, List.length_take]
      exact Nat.add_le_add_left (Nat.min_le_right _ _) _

theorem Costs.onBus {H : Type} {g : Meter W} {t b : Nat} {m : M W ε α} (h : Costs g t b m) : Costs (g.dev (H := H)) t b (Device.onBus m) :=
  ⟨fun d => h.run d.bus⟩

theorem Costs.onSockBus {S H : Type} {g : Meter W} {t b : Nat} {m : M (S × W) ε α} (h : Costs g.snd t b m) :
    Costs ((g.dev (H := H)).snd (S := S)) t b (Device.onSockBus m) := ⟨fun s => h.run (s.1, s.2.bus)⟩

theorem CostsB.onSockBus {H : Type} {g : Meter W} {L t b : Nat} {m : M (List U8 × W) ε α} (h : CostsB g L t b m) :
    CostsB (g.dev (H := H)) L t b (Device.onSockBus m) := ⟨fun s hs => h.run (s.1, s.2.bus) hs⟩

theorem co_release {H : Type} (g : Meter W) (s : Socket) :
    Costs (g.dev (H := H)) 0 0 (Device.releaseSocket s : M (Device W H) ε Unit) := by
  constructor
  intro d
  unfold Device.releaseSocket
  split <;> exact .refl (g.dev (H := H)) d 0 0

end W5500.Spec
