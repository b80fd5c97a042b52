import Verif.Spec.Swift
import Verif.Proofs.RecvReturns
import Verif.Proofs.SendReturns
import Verif.Proofs.Cost
/-! # How long calls take on a chip -/

namespace W5500.Spec
open W5500 socketn Sock
variable {E ε ε' α β : Type} {sched : Nat → List (Nat × Act)} {faults : Nat → Option (E × Nat)} {n : Nat}

/-- From a state with `P`, `m` takes at most `b` SPI bytes, however it ends, and if it returns `Ok a` then `Q a` holds. -/
structure Timely (P : Chip → Prop) (b : Nat) (m : M Chip ε α) (Q : α → Chip → Prop) : Prop where
  run : ∀ c, P c → (m c).2.clock ≤ c.clock + b ∧ ∀ a, (m c).1 = .ok a → Q a (m c).2

namespace Timely
variable {P P' : Chip → Prop} {Q Q' : α → Chip → Prop} {b b' t : Nat}

theorem of {R : Chip → Prop} {m : M Chip ε α} (h : Hoare P m Q R) (hc : Costs Meter.chip t b m) : Timely P b m Q :=
  ⟨fun c hp => ⟨(hc.run c).2, fun _ ha => h.ok hp (Prod.ext ha rfl)⟩⟩

theorem last {m : M Chip ε α} (hc : Costs Meter.chip t b m) : Timely P b m fun _ _ => True :=
  ⟨fun c _ => ⟨(hc.run c).2, fun _ _ => trivial⟩⟩

theorem le {m : M Chip ε α} (h : Timely P b m Q) (hb : b ≤ b') : Timely P b' m Q :=
  ⟨fun c hp => ⟨Nat.le_trans (h.run c hp).1 (by omega), (h.run c hp).2⟩⟩

theorem pre {m : M Chip ε α} (h : Timely P b m Q) (hp : ∀ c, P' c → P c) : Timely P' b m Q := ⟨fun c hc => h.run c (hp c hc)⟩

theorem post {R : Chip → Prop} {m : M Chip ε α} (h : Timely P b m Q') (h' : Hoare P m Q R) : Timely P b m Q :=
  ⟨fun c hp => ⟨(h.run c hp).1, fun _ ha => h'.ok hp (Prod.ext ha rfl)⟩⟩

theorem bind {Q' : β → Chip → Prop} {m : M Chip ε α} {f : α → M Chip ε β} (h : Timely P b m Q) (hf : ∀ a, Timely (Q a) b' (f a) Q') :
    Timely P (b + b') (m >>= f) Q' := by
  constructor
  intro c hp
  obtain ⟨h1, h2⟩ := h.run c hp
  rw [M.bind_def]
  rcases hr : m c with ⟨a | e | _ | _, c'⟩ <;> rw [hr] at h1 h2
  · obtain ⟨h3, h4⟩ := (hf a).run c' (h2 a rfl)
    exact ⟨by dsimp only at h1 ⊢; omega, h4⟩
  all_goals exact ⟨by dsimp only at h1 ⊢; omega, nofun⟩

theorem throw {e : ε} : Timely P b (M.throw e : M Chip ε α) Q := ⟨fun _ _ => ⟨Nat.le_add_right _ _, nofun⟩⟩

theorem mapErr {f : ε → ε'} {m : M Chip ε α} (h : Timely P b m Q) : Timely P b (M.mapErr f m) Q := by
  constructor
  intro c hp
  obtain ⟨h1, h2⟩ := h.run c hp
  rw [M.mapErr_def]
  rcases hr : m c with ⟨a | e | _ | _, c'⟩ <;> rw [hr] at h1 h2
  · exact ⟨h1, fun x hx => h2 x (by cases hx; rfl)⟩
  all_goals exact ⟨h1, nofun⟩

theorem ite {p : Prop} [Decidable p] {m m' : M Chip ε α} (h : p → Timely P b m Q) (h' : ¬ p → Timely P b m' Q) :
    Timely P b (if p then m else m') Q := by
  split
  · exact h ‹_›
  · exact h' ‹_›

theorem fact' {p : Prop} {m : M Chip ε α} (h : p → Timely P b m Q) : Timely (fun s => P s ∧ p) b m Q :=
  ⟨fun s hs => (h hs.2).run s hs.1⟩

theorem exists_pre {ι : Type} {P : ι → Chip → Prop} {m : M Chip ε α} (h : ∀ i, Timely (P i) b m Q) :
    Timely (fun s => ∃ i, P i s) b m Q :=
  ⟨fun s ⟨i, hs⟩ => (h i).run s hs⟩

end Timely

/-! ## UDP -/

/-- Once the packet has left, it takes at most one more round. -/
theorem flush_ends {n : Nat} (hn : n < 8) (d : List U8 × List U8) (K : List Packet) (p : U16) (data : List U8)
    (u : UdpSocket) (hu : u.socket = sockOf n) {k : Nat} {b : Bool} (hk : (n, .emit b) ∈ sched k) (fuel : Nat) (c : Chip)
    (hc : PktSent 2 d K p data (c.socks n) ∧ (k < c.clock → (c.socks n).txRd = (c.socks n).txLimit)) (ht : c.clock ≤ k + 4) :
    (u.flushLoop (Chip.dev sched faults).bus fuel c).2.clock ≤ k + 11 := by
  induction fuel generalizing c with
  | zero => exact Nat.le_trans ht (by omega)
  | succ f ih =>
    obtain ⟨h1, h2⟩ := co_tryFlush (Meter.chip_on sched faults) u c
    unfold UdpSocket.flushLoop
    rcases hr : u.tryFlushTx (Chip.dev sched faults).bus c with ⟨_ | e | _ | _, c'⟩ <;> rw [hr] at h1 h2
    case succ.err =>
      cases e with
      | wouldBlock =>
        obtain ⟨g1, g2, g3⟩ := tryFlush_blocks hn d K p data u hu hk hc rfl hr
        have : c'.clock ≤ c.clock + 4 := (h2 rfl).2
        exact ih c' g1 (by omega)
      | other e =>
        have : c'.clock ≤ c.clock + 7 := h1.2
        dsimp only
        omega
    all_goals
      have : c'.clock ≤ c.clock + 7 := h1.2
      dsimp only
      omega

theorem flush_timely {n L : Nat} (hn : n < 8) (he : EmittingIn L sched n) (d : List U8 × List U8) (K : List Packet) (p : U16)
    (data : List U8) (u : UdpSocket) (hu : u.socket = sockOf n) (fuel : Nat) :
    Timely (At n (PktSent 2 d K p data)) (L + 10) (u.flushLoop (Chip.dev sched faults).bus fuel) fun _ _ => True := by
  refine ⟨fun c hc => ⟨?_, fun _ _ => trivial⟩⟩
  obtain ⟨k, h1, h2, b, h3⟩ := he c.clock
  have := flush_ends (faults := faults) hn d K p data u hu h3 fuel c ⟨hc, fun h => by omega⟩ (by omega)
  omega

/-- `socket_send` of one non-empty piece. -/
theorem sendPiece_timely {n L : Nat} (hn : n < 8) (he : EmittingIn L sched n) (d : List U8 × List U8) (K : List Packet) (A : List U8)
    (z : Nat) (u : UdpSocket) (hu : u.socket = sockOf n) (data : List U8) (hd : data ≠ []) (hl : data.length ≤ z) (fuel : Nat) :
    Timely (At n fun s => PktIdle 2 d K A s ∧ s.txSize = z) (L + 18 + data.length)
      (u.socketSend (Chip.dev sched faults).bus fuel data)
      (fun k => At n fun s => k = data.length ∧ (∃ b, PktIdle 2 d (K ++ [⟨d.1, d.2, data, b⟩]) A s) ∧ s.txSize = z) := by
  refine .post (Q' := fun _ _ => True) ?_ (udp_sendPiece hn d K A z u hu fuel data hd hl)
  have hM := Meter.chip_on sched faults
  have hP : StableS (fun s => PktIdle 2 d K A s ∧ s.txSize = z) :=
    (stable_pktIdle (by omega) d K A).and (stable_txSize z)
  unfold UdpSocket.socketSend Socket.getTxFreeSize
  refine .le (b := 1 + (2 + (data.length + (L + 15)))) (.bind (.of (hs_checkStatus hn hP u hu) (co_checkStatus hM u)) fun _ => ?_) (by omega)
  refine .ite (fun _ => .throw) fun _ => ?_
  rw [hu]
  refine .bind (.mapErr (.of (hs_freeIdle hn (by omega) d K A z) (co_read2 hM _ _))) fun v => .fact' fun hv => ?_
  refine .ite (fun _ => .throw) fun _ => ?_
  dsimp only
  have hG := frame_and_rx (frame_and_size (frame_pktBase (m := 2) (by omega) d K) z) A
  suffices H : Timely (At n fun s => PktIdle 2 d K A s ∧ s.txSize = z) (data.length + (L + 15)) (do
      let writePointer ← M.mapErr (NbError.ofBus (E := E)) (Socket.getTxWritePointer (Chip.dev sched faults).bus (sockOf n))
      M.mapErr NbError.ofBus ((Chip.dev sched faults).bus.write (sockOf n).txBuffer writePointer data)
      M.mapErr NbError.ofBus (Socket.setTxWritePointer (Chip.dev sched faults).bus (sockOf n)
            (writePointer + BitVec.ofNat 16 data.length))
      u.blockSendCommand (Chip.dev sched faults).bus fuel
      pure data.length) (fun _ _ => True) by
    split
    · exact H
    · have : data.take v.toNat = data := List.take_of_length_le (by omega)
      unfold M.sliceTo
      rw [if_pos (by omega), this]
      exact H
  refine .le (b := 2 + (data.length + (2 + ((1 + (L + 10)) + 0)))) ?_ (by omega)
  refine .bind (Q := fun p => At n fun s => ((PktBase 2 d K s ∧ s.txSize = z) ∧ RxReady A s) ∧ s.txWr = p ∧
    s.txLimit = p ∧ s.used + data.length ≤ s.txSize)
    (.mapErr (.of ((hs_readMem hn hP _ (.inl rfl)).post ?_) (co_read2 hM _ _))) fun p => ?_
  · rintro p c ⟨⟨h1, h2⟩, h3⟩
    refine ⟨⟨⟨h1.base, h2⟩, h1.rx⟩, h3.symm, h1.wr.symm.trans h3.symm, ?_⟩
    have e1 : Sock.used (c.socks n) = 0 := h1.base.used
    have e2 : Sock.txSize (c.socks n) = z := h2
    omega
  refine .bind (.mapErr (.of (hs_payload hn hG p data) (co_write hM _ _ _))) fun _ => ?_
  refine .bind (.mapErr (.of (hs_advance hn hG p data) (co_setTxWr hM _ _))) fun _ => ?_
  have hstG : StableS (fun s => ((PktBase 2 d K s ∧ s.txSize = z) ∧ RxReady A s) ∧
      s.txWr = p + BitVec.ofNat 16 data.length ∧ s.txLimit = p ∧
      s.used + data.length ≤ s.txSize ∧ ring s.txMem s.txSize p data.length = data) := by
    rintro s a ⟨h1, h2, h3, h4, h5⟩
    have := (act_txBase h1.1.1.txBase a).2
    exact ⟨hG.stable s a h1, by rw [act_txWr]; exact h2, by rw [act_txLimit]; exact h3,
      by rw [act_txSize]; omega, by rw [act_txMem, act_txSize]; exact h5⟩
  unfold UdpSocket.blockSendCommand
  rw [hu]
  refine .bind (Q := fun _ _ => True) (.bind (.mapErr (.of (hs_write1 (Q := PktSent 2 d K p data)
    hn hstG _ _ (fun s hs => ?_)) (co_command hM _ _))) fun _ => flush_timely hn he d K p data u hu fuel) fun _ => .last (.pure _)
  obtain ⟨⟨⟨h1, h2⟩, h3⟩, h4, h5, h6, h7⟩ := hs
  exact send_pkt h1 hd h4 h5 h6 h7

/-- The loop of `socket_send_all`. -/
theorem sendLoop_timely {n L : Nat} (hn : n < 8) (he : EmittingIn L sched n) (d : List U8 × List U8) (A : List U8) (z : Nat) (hz : z ≠ 0)
    (u : UdpSocket) (hu : u.socket = sockOf n) (buf : List U8) (fuel k : Nat) : ∀ (K : List Packet) (v : U16), v.toNat = z →
    ∀ t, t ≤ buf.length →
    Timely (At n fun s => PktIdle 2 d K A s ∧ s.txSize = z) ((pieces z (buf.drop t)).length * (L + 20) + (buf.length - t))
      (u.sendAllLoop (Chip.dev sched faults).bus fuel buf k v t) fun _ _ => True := by
  have hM := Meter.chip_on sched faults
  induction k with
  | zero => exact fun K v _ t _ => .last (.fuel (t := 0))
  | succ k ih =>
    intro K v hv t ht
    unfold UdpSocket.sendAllLoop
    refine .ite (fun _ => (Timely.last (.pure _)).le (Nat.zero_le _)) fun hend => ?_
    have hrem : 0 < (buf.drop t).length := by rw [List.length_drop]; omega
    have htk : (buf.drop t).take (min v.toNat (buf.drop t).length) = (buf.drop t).take z := by
      rw [hv]
      by_cases h : z ≤ (buf.drop t).length
      · rw [Nat.min_eq_left h]
      · rw [Nat.min_eq_right (by omega), List.take_length, List.take_of_length_le (by omega)]
    have hpl : ((buf.drop t).take z).length = min z (buf.drop t).length := List.length_take
    unfold M.sliceFrom
    rw [if_pos ht]
    show Timely _ _ (M.sliceTo (buf.drop t) (min v.toNat (buf.drop t).length) >>= _) _
    unfold M.sliceTo
    rw [if_pos (Nat.min_le_right _ _), htk]
    show Timely _ _ (u.socketSend (Chip.dev sched faults).bus fuel ((buf.drop t).take z) >>= _) _
    have hne : (buf.drop t).take z ≠ [] := List.length_pos_iff.mp (by omega)
    have hlen : (pieces z (buf.drop t)).length = (pieces z (buf.drop (t + ((buf.drop t).take z).length))).length + 1 := by
      rw [pieces_cons hz (List.length_pos_iff.mp hrem), List.length_cons, List.drop_drop, hpl]
      congr 3
      by_cases h : z ≤ (buf.drop t).length
      · rw [Nat.min_eq_left h]
      · rw [Nat.min_eq_right (by omega), List.drop_of_length_le (by rw [List.length_drop] at *; omega),
          List.drop_of_length_le (by rw [List.length_drop] at *; omega)]
    rw [List.length_drop] at hpl hrem
    rw [hlen, Nat.succ_mul]
    refine .le (b := (L + 18 + ((buf.drop t).take z).length) + (2 + ((pieces z (buf.drop (t + ((buf.drop t).take z).length))).length * (L + 20) +
      (buf.length - (t + ((buf.drop t).take z).length))))) (.bind (sendPiece_timely hn he d K A z u hu _ hne (by omega) fuel) fun sent => ?_)
      (by omega)
    refine .pre (P := fun c => (At n (fun s => ∃ b, PktIdle 2 d (K ++ [⟨d.1, d.2, (buf.drop t).take z, b⟩]) A s ∧ s.txSize = z) c) ∧
      sent = ((buf.drop t).take z).length) (.fact' fun hs => ?_) (fun c h => ⟨h.2.1.elim fun b hb => ⟨b, hb, h.2.2⟩, h.1⟩)
    subst hs
    refine Timely.pre (Timely.exists_pre (P := fun b => At n (fun s => PktIdle 2 d (K ++ [(⟨d.1, d.2, (buf.drop t).take z, b⟩ : Packet)]) A s ∧
      s.txSize = z)) fun b => ?_) (fun c h => h)
    unfold Socket.getTxFreeSize
    rw [hu]
    exact .bind (.mapErr (.of (hs_freeIdle hn (by omega) d _ A z) (co_read2 hM _ _))) fun v => .fact' fun hv =>
      ih _ v hv _ (by omega)

theorem sendAll_timely {n L : Nat} (hn : n < 8) (he : EmittingIn L sched n) (d : List U8 × List U8) (K : List Packet) (A : List U8) (z : Nat)
    (u : UdpSocket) (hu : u.socket = sockOf n) (buf : List U8) (fuel : Nat) :
    Timely (At n fun s => PktIdle 2 d K A s ∧ s.txSize = z) ((pieces z buf).length * (L + 20) + buf.length + 3)
      (u.socketSendAll (Chip.dev sched faults).bus fuel buf) fun _ _ => True := by
  have hM := Meter.chip_on sched faults
  have hP : StableS (fun s => PktIdle 2 d K A s ∧ s.txSize = z) :=
    (stable_pktIdle (by omega) d K A).and (stable_txSize z)
  unfold UdpSocket.socketSendAll Socket.getTxFreeSize
  refine .le (b := 1 + (2 + ((pieces z buf).length * (L + 20) + buf.length))) (.bind (.of (hs_checkStatus hn hP u hu) (co_checkStatus hM u))
    fun _ => ?_) (by omega)
  refine .ite (fun _ => .throw) fun _ => ?_
  rw [hu]
  refine .bind (.mapErr (.of (hs_freeIdle hn (by omega) d K A z) (co_read2 hM _ _))) fun v => .fact' fun hv => ?_
  refine .ite (fun _ => .throw) fun hne => ?_
  refine (sendLoop_timely hn he d A z ?_ u hu buf fuel fuel K v hv 0 (Nat.zero_le _)).le (by rw [List.drop_zero]; omega)
  rintro rfl
  exact hne (BitVec.eq_of_toNat_eq hv)

/-- `send_to`. -/
theorem sendTo_timely {n L : Nat} (hn : n < 8) (he : EmittingIn L sched n) (K : List Packet) (A : List U8) (z : Nat)
    (qs : List Dgram) (u : UdpSocket) (hu : u.socket = sockOf n) (a : SockAddr4) (buf : List U8) (fuel : Nat) (c : Chip)
    (hc : UdpIdle K A z qs (c.socks n)) (hco : Coherent n u c) :
    (UdpSocket.socketSendTo (Chip.dev sched faults).bus fuel a buf (u, c)).2.2.clock ≤
      c.clock + ((pieces (c.socks n).txSize buf).length * (L + 20) + buf.length + 9) := by
  have hM := Meter.chip_on sched faults
  unfold UdpSocket.socketSendTo
  have h1 := (Costs.mapErr (f := NbError.other) (co_setDestination hM a)).run (u, c)
  have hd := udp_setDestination (sched := sched) (faults := faults) hn (stable_udpIdle K A z qs)
      (fun s b x h1 h2 h3 h => h.setMem b x (dest_indifferent h1 h2 h3)) u hu a
  have h2 := (Hoare.mapErr (f := NbError.other) hd).run (u, c) ⟨rfl, hc, hco⟩
  rw [M.bind_def]
  rcases hr : M.mapErr NbError.other (UdpSocket.setDestination (Chip.dev sched faults).bus a) (u, c) with ⟨x | e | _ | _, u1, c1⟩
  · rw [hr] at h1 h2
    have h1 : c1.clock ≤ c.clock + 6 := h1.2
    obtain ⟨e1, e2, _⟩ := h2
    dsimp only at e1
    subst e1
    have := (sendAll_timely (faults := faults) hn he _ K A (c.socks n).txSize { u with destination := some a } hu buf fuel).run c1
      ⟨e2.idle, by rw [e2.size, hc.size]⟩
    dsimp only
    show (UdpSocket.socketSendAll (Chip.dev sched faults).bus fuel { u with destination := some a } buf c1).2.clock ≤ _
    omega
  all_goals
    rw [hr] at h1
    have h1 : c1.clock ≤ c.clock + 6 := h1.2
    dsimp only
    omega

/-! ## TCP and MACRAW

If a number of rounds is enough for the waiting, it is enough for the call. -/

theorem tcpSend_rounds {n L : Nat} (hn : n < 8) (he : ConfirmingIn L sched n) (data : List U8) (c : Chip) (hp : (c.socks n).proto = 1) :
    (TcpSocket.socketSend (Chip.dev sched faults).bus (L + 1) ⟨sockOf n⟩ data c).1 ≠ .fuel := by
  refine ((tcpSend_total' (sched := sched) (faults := faults) hn (fun _ => L + 1) ⟨fun c hc => ⟨0, ?_⟩⟩ data).run c hp).elim fun _ h => h
  obtain ⟨k, h1, h0, b, h2, h3⟩ := he c.clock
  refine wait_returns hn (Chip.ticks_event (D := fun s => s.ir.getLsbD 4 = true) stable_tcp (fun s a _ => act_flag s a) h3
    fun s hs => ?_) (fun c h => h.2) _ c ⟨hc, fun h => by omega⟩ (by omega)
  show (s.ir ||| (if s.proto = 1 then b else _)).getLsbD 4 = true
  rw [if_pos hs, BitVec.getLsbD_or, h2, Bool.or_true]

theorem connect_rounds {n L : Nat} (hn : n < 8) (ha : AnsweringIn L sched n) (port : U16) (remote : SockAddr4) (c : Chip) :
    ((do
      TcpSocket.open (Chip.dev sched faults).bus ⟨sockOf n⟩ port
      TcpSocket.socketConnect (Chip.dev sched faults).bus L ⟨sockOf n⟩ remote : M Chip (TcpSocketError E) Unit) c).1 ≠ .fuel := by
  refine ((connect_total' (sched := sched) (faults := faults) (fun _ => L) ⟨fun c _ => ⟨0, ?_⟩⟩ port remote).run c trivial).elim fun _ h => h
  obtain ⟨l, h1, h0, ⟨x, h2, h3⟩, h4⟩ := ha c.clock
  exact connectLoop_returns hn h2 h3 h4 _ c h1 (by omega)

theorem rawWrite_rounds {n L L' : Nat} (hn : n < 8) (he : EmittingIn L sched n) (hc : ConfirmingIn L' sched n) (hl : Lossless sched n)
    (r : RawDevice) (hr : r.rawSocket = sockOf n) (K : List Packet) (A : List U8) (z : Nat) (fs : List (List U8))
    (frame : List U8) (hf : frame ≠ []) (hz : frame.length ≤ z) (c : Chip) (h : RawIdle K A z fs (c.socks n)) :
    (r.writeFrame (Chip.dev sched faults).bus (L + L' + 1) frame c).1 ≠ .fuel := by
  refine ((rawWrite_total' (sched := sched) (faults := faults) hn (fun _ => L + L' + 1) (fun d K p frame => ⟨fun c h0 => ⟨0, ?_⟩⟩)
    r hr K A z fs frame hf hz).run c h).elim fun _ h => h
  obtain ⟨k, h1, g1, b, h2⟩ := he c.clock
  obtain ⟨k', h3, g2, x, h4, h5⟩ := hc (k + 1)
  have hno : ∀ {j a}, (n, a) ∈ sched j → a ≠ .emit false := fun {j a} h e => hl j (e ▸ h)
  have hI := Chip.ticks_events (sched := sched) (n := n) (P := RawSafe d K p frame) (D := OnTheWay) (D' := fun s => s.ir.getLsbD 4 = true)
    (fun j s a ha h => act_rawSafe s a (hno ha) h) (fun j s a ha h => act_onTheWay s a (by rw [h.1.mode]; decide))
    (fun j s a _ _ => act_flag s a) h3 h2 h5 (fun s h => emit_safe s (hno h2) h) (fun s h hw => ?_)
  · exact wait_returns hn hI (fun c h => h.2.2) _ c ⟨h0, fun h => by omega, fun h => by omega⟩ (by omega)
  · have hp : s.proto ≠ 1 := by rw [h.1.mode]; decide
    show (s.ir ||| (if s.proto = 1 then x else x &&& (s.owed ||| 0xE7))).getLsbD 4 = true
    rw [if_neg hp, BitVec.getLsbD_or, BitVec.getLsbD_and, BitVec.getLsbD_or, h4]
    rcases hw with hw | hw <;> rw [hw] <;> simp

end W5500.Spec
