import Verif.Proofs.ChipReturns
/-! # UDP `send` returns if the chip keeps sending -/

namespace W5500.Spec
open W5500 socketn Sock
variable {E ε α : Type} {sched : Nat → List (Nat × Act)} {faults : Nat → Option (E × Nat)}

theorem sent_done {m : Nat} (hm : m = 2 ∨ m = 4) {d : List U8 × List U8} {K : List Packet} {p : U16} {data : List U8} (s : Sock)
    (a : Act) (h : PktSent m d K p data s) (hd : s.txRd = s.txLimit) : (s.act a).txRd = (s.act a).txLimit := by
  rw [act_txLimit, (act_idle (by rw [h.mode]; omega) hd a).1]
  exact hd

theorem emit_done {m : Nat} (hm : m = 2 ∨ m = 4) {d : List U8 × List U8} {K : List Packet} {p : U16} {data : List U8} {b : Bool} (s : Sock)
    (h : PktSent m d K p data s) : (s.act (.emit b)).txRd = (s.act (.emit b)).txLimit := by
  by_cases hd : s.txRd = s.txLimit
  · exact sent_done hm s _ h hd
  · have hc : (s.proto = 2 ∨ s.proto = 4) ∧ s.txRd ≠ s.txLimit := ⟨by rw [h.mode]; exact hm, hd⟩
    simp only [act, if_pos hc]

theorem tryFlush_noFuel (u : UdpSocket) : NoFuel (u.tryFlushTx (Chip.dev sched faults).bus) := by
  have hB := bus_returns (Chip.dev sched faults)
  unfold UdpSocket.tryFlushTx
  refine .bind (.mapErr _ (.read2 hB _ _)) fun _ => .bind (.mapErr _ (.read2 hB _ _)) fun _ => .ite ?_ (.throw _)
  refine .bind (.mapErr _ (.bind (.read1 hB _ _) fun _ => .pure _)) fun _ => .ite (.mapErr _ (.write hB _ _ _)) ?_
  exact .bind (.mapErr _ (.bind (.read1 hB _ _) fun _ => .pure _)) fun _ =>
    .ite (.bind (.mapErr _ (.write hB _ _ _)) fun _ => .throw _) (.pure _)

/-- While `try_flush_tx` would block, time passes; and it does not once the packet has left. -/
theorem tryFlush_blocks {n : Nat} (hn : n < 8) (d : List U8 × List U8) (K : List Packet) (p : U16) (data : List U8)
    (u : UdpSocket) (hu : u.socket = sockOf n) {k t : Nat} {b : Bool} (hk : (n, .emit b) ∈ sched k) {c c' : Chip}
    (hc : PktSent 2 d K p data (c.socks n) ∧ (k < c.clock → (c.socks n).txRd = (c.socks n).txLimit)) (ht : c.clock = t)
    (h : u.tryFlushTx (Chip.dev sched faults).bus c = (.err .wouldBlock, c')) :
    (PktSent 2 d K p data (c'.socks n) ∧ (k < c'.clock → (c'.socks n).txRd = (c'.socks n).txLimit)) ∧
      t < c'.clock ∧ t ≤ k := by
  have hP := stable_pktSent (m := 2) (.inl rfl) d K p data
  have hI := Chip.ticks_event hP (sent_done (.inl rfl)) hk (emit_done (.inl rfl))
  have no : ∀ {β : Type} {m : M Chip E β} {c c' : Chip}, M.mapErr (NbError.ofBus (E := E)) m c ≠ (.err .wouldBlock, c') := by
    intro β m c c' h
    rw [M.mapErr_def] at h
    split at h <;> cases h
  unfold UdpSocket.tryFlushTx Socket.hasInterrupt at h
  rw [hu] at h
  rw [M.bind_eq_err] at h
  rcases h with h | ⟨v, c1, h1, h⟩
  · exact absurd h no
  rw [M.bind_eq_err] at h
  rcases h with h | ⟨w, c2, h2, h⟩
  · exact absurd h no
  rw [M.mapErr_eq_ok] at h1 h2
  split at h
  · exfalso
    rw [M.bind_eq_err] at h
    rcases h with h | ⟨x, c3, _, h⟩
    · exact no h
    split at h
    · exact no h
    rw [M.bind_eq_err] at h
    rcases h with h | ⟨x, c3, _, h⟩
    · exact no h
    split at h
    · rw [M.bind_eq_err] at h
      rcases h with h | ⟨x, c3, _, h⟩
      · exact no h
      · cases h
    · cases h
  · rename_i hne
    cases h
    have i1 := (hI.read2 (faults := faults) _ _).ok hc h1
    have i2 := (hI.read2 (faults := faults) _ _).ok i1 h2
    have t1 := (Chip.read2_clock (sched := sched) (faults := faults) _ _ t).ok ht h1
    have t2 := (Chip.read2_clock (sched := sched) (faults := faults) _ _ _).ok t1 h2
    refine ⟨i2, by omega, ?_⟩
    apply Decidable.byContradiction
    intro hlt
    apply hne
    -- it has left already
    have hD : StableS (fun s => PktSent 2 d K p data s ∧ s.txRd = s.txLimit) :=
      fun s a h => ⟨hP s a h.1, sent_done (.inl rfl) s a h.1 h.2⟩
    obtain ⟨r1, s1, s2, p1, p2, _, _, rfl⟩ := (hs_read2 (sched := sched) (faults := faults) hn hD _).ok (s := c) ⟨hc.1, hc.2 (by omega)⟩ h1
    obtain ⟨r2, rfl⟩ := (hs_readMem (sched := sched) (faults := faults) hn hD _ (.inl rfl)).ok (s := c1) r1 h2
    have e1 : s1.txRd = p + BitVec.ofNat 16 data.length := p1.2.trans p1.1.lim
    have e2 : s2.txRd = p + BitVec.ofNat 16 data.length := p2.2.trans p2.1.lim
    show ((s1.txRd.extractLsb' 8 8 : U8) ++ (s2.txRd.extractLsb' 0 8 : U8) : U16) = Sock.txWr _
    rw [e1, e2, whole, r2.1.wr, r2.1.lim]

theorem flush_returns {n : Nat} (hn : n < 8) (d : List U8 × List U8) (K : List Packet) (p : U16) (data : List U8)
    (u : UdpSocket) (hu : u.socket = sockOf n) {k : Nat} {b : Bool} (hk : (n, .emit b) ∈ sched k) (fuel : Nat) (c : Chip)
    (hc : PktSent 2 d K p data (c.socks n) ∧ (k < c.clock → (c.socks n).txRd = (c.socks n).txLimit))
    (hf : k + 1 - c.clock < fuel) : (u.flushLoop (Chip.dev sched faults).bus fuel c).1 ≠ .fuel := by
  induction fuel generalizing c with
  | zero => omega
  | succ f ih =>
    have h1 := (tryFlush_noFuel (sched := sched) (faults := faults) u).run c
    unfold UdpSocket.flushLoop
    rcases hr : u.tryFlushTx (Chip.dev sched faults).bus c with ⟨_ | e | _ | _, c'⟩ <;> rw [hr] at h1
    · nofun
    · cases e with
      | wouldBlock =>
        obtain ⟨g1, g2, g3⟩ := tryFlush_blocks hn d K p data u hu hk hc rfl hr
        exact ih c' g1 (by omega)
      | other e => nofun
    · nofun
    · exact absurd rfl h1

theorem flush_total {n : Nat} (hn : n < 8) (he : Emitting sched n) (d : List U8 × List U8) (K : List Packet) (p : U16)
    (data : List U8) (u : UdpSocket) (hu : u.socket = sockOf n) :
    Total (At n (PktSent 2 d K p data)) (fun k => u.flushLoop (Chip.dev sched faults).bus k) := by
  constructor
  intro c hc
  obtain ⟨k, h1, b, h2⟩ := he c.clock
  exact ⟨_, flush_returns hn d K p data u hu h2 _ c ⟨hc, fun h => by omega⟩ (Nat.lt_succ_self _)⟩

/-- `socket_send` of one non-empty piece. -/
theorem sendPiece_total {n : Nat} (hn : n < 8) (he : Emitting sched n) (d : List U8 × List U8) (K : List Packet) (A : List U8)
    (z : Nat) (u : UdpSocket) (hu : u.socket = sockOf n) (data : List U8) (hd : data ≠ []) (hl : data.length ≤ z) :
    Total (At n fun s => PktIdle 2 d K A s ∧ s.txSize = z)
      (fun fuel => u.socketSend (Chip.dev sched faults).bus fuel data) := by
  have hB := bus_returns (Chip.dev sched faults)
  have hP : StableS (fun s => PktIdle 2 d K A s ∧ s.txSize = z) :=
    (stable_pktIdle (by omega) d K A).and (stable_txSize z)
  have nfStatus : NoFuel (u.checkStatus (Chip.dev sched faults).bus) := by
    unfold UdpSocket.checkStatus
    refine .bind (.mapErr _ (.read1 hB _ _)) fun x => ?_
    split
    · exact .pure _
    · exact .throw _
    · exact .throw _
  unfold UdpSocket.socketSend Socket.getTxFreeSize
  refine .step nfStatus (hs_checkStatus hn hP u hu) fun _ => ?_
  refine .ite (fun _ => .of (.throw _)) fun _ => ?_
  rw [hu]
  refine .step (.mapErr _ (.read2 hB _ _)) (.mapErr (hs_freeIdle hn (by omega) d K A z)) fun v => .fact' fun hv => ?_
  refine .ite (fun _ => .of (.throw _)) fun _ => ?_
  dsimp only
  have hG := frame_and_rx (frame_and_size (frame_pktBase (m := 2) (by omega) d K) z) A
  suffices H : Total (At n fun s => PktIdle 2 d K A s ∧ s.txSize = z) (fun fuel => do
      let writePointer ← M.mapErr (NbError.ofBus (E := E)) (Socket.getTxWritePointer (Chip.dev sched faults).bus (sockOf n))
      M.mapErr NbError.ofBus ((Chip.dev sched faults).bus.write (sockOf n).txBuffer writePointer data)
      M.mapErr NbError.ofBus (Socket.setTxWritePointer (Chip.dev sched faults).bus (sockOf n)
            (writePointer + BitVec.ofNat 16 data.length))
      u.blockSendCommand (Chip.dev sched faults).bus fuel
      pure data.length) by
    split
    · exact H
    · have : data.take v.toNat = data := List.take_of_length_le (by omega)
      unfold M.sliceTo
      rw [if_pos (by omega), this]
      exact H
  refine .step (Q := fun p => At n fun s => ((PktBase 2 d K s ∧ s.txSize = z) ∧ RxReady A s) ∧ s.txWr = p ∧
    s.txLimit = p ∧ s.used + data.length ≤ s.txSize) (.mapErr _ (.read2 hB _ _))
    (.mapErr ((hs_readMem hn hP _ (.inl rfl)).post ?_)) fun p => ?_
  · rintro p c ⟨⟨h1, h2⟩, h3⟩
    refine ⟨⟨⟨h1.base, h2⟩, h1.rx⟩, h3.symm, h1.wr.symm.trans h3.symm, ?_⟩
    have e1 : Sock.used (c.socks n) = 0 := h1.base.used
    have e2 : Sock.txSize (c.socks n) = z := h2
    omega
  refine .step (.mapErr _ (.write hB _ _ _)) (.mapErr (hs_payload hn hG p data)) fun _ => ?_
  refine .step (.mapErr _ (.write hB _ _ _)) (.mapErr (hs_advance hn hG p data)) fun _ => ?_
  have hstG : StableS (fun s => ((PktBase 2 d K s ∧ s.txSize = z) ∧ RxReady A s) ∧
      s.txWr = p + BitVec.ofNat 16 data.length ∧ s.txLimit = p ∧
      s.used + data.length ≤ s.txSize ∧ ring s.txMem s.txSize p data.length = data) := by
    rintro s a ⟨h1, h2, h3, h4, h5⟩
    have := (act_txBase h1.1.1.txBase a).2
    exact ⟨hG.stable s a h1, by rw [act_txWr]; exact h2, by rw [act_txLimit]; exact h3,
      by rw [act_txSize]; omega, by rw [act_txMem, act_txSize]; exact h5⟩
  unfold UdpSocket.blockSendCommand Socket.command
  rw [hu]
  refine .andThen ?_ fun _ => .pure _
  refine .step (.mapErr _ (.write hB _ _ _)) (.mapErr (hs_write1 (Q := PktSent 2 d K p data)
    hn hstG _ _ (fun s hs => ?_))) fun _ => flush_total hn he d K p data u hu
  obtain ⟨⟨⟨h1, h2⟩, h3⟩, h4, h5, h6, h7⟩ := hs
  exact send_pkt h1 hd h4 h5 h6 h7

/-- The loop of `socket_send_all`. -/
theorem sendLoop_total {n : Nat} (hn : n < 8) (he : Emitting sched n) (d : List U8 × List U8) (A : List U8) (z : Nat) (hz : z ≠ 0)
    (u : UdpSocket) (hu : u.socket = sockOf n) (buf : List U8) (K : List Packet) (v : U16) (hv : v.toNat = z) (t : Nat)
    (ht : t ≤ buf.length) :
    Total (At n fun s => PktIdle 2 d K A s ∧ s.txSize = z)
      (fun fuel => u.sendAllLoop (Chip.dev sched faults).bus fuel buf fuel v t) := by
  generalize hr : buf.length - t = rem
  induction rem using Nat.strongRecOn generalizing K v t with
  | ind rem ih =>
    constructor
    intro c hc
    by_cases hend : t = buf.length
    · refine ⟨1, ?_⟩
      unfold UdpSocket.sendAllLoop
      rw [if_pos hend]
      nofun
    have hrem : 0 < (buf.drop t).length := by rw [List.length_drop]; omega
    have htk : (buf.drop t).take (min v.toNat (buf.drop t).length) = (buf.drop t).take z := by
      rw [hv]
      by_cases h : z ≤ (buf.drop t).length
      · rw [Nat.min_eq_left h]
      · rw [Nat.min_eq_right (by omega), List.take_length, List.take_of_length_le (by omega)]
    have hpl : ((buf.drop t).take z).length = min z (buf.drop t).length := List.length_take
    have unf : ∀ f i, u.sendAllLoop (Chip.dev sched faults).bus f buf (i + 1) v t c =
        (do
          let sent ← u.socketSend (Chip.dev sched faults).bus f ((buf.drop t).take z)
          let freeSize ← M.mapErr NbError.ofBus (u.socket.getTxFreeSize (Chip.dev sched faults).bus)
          u.sendAllLoop (Chip.dev sched faults).bus f buf i freeSize (t + sent)) c := by
      intro f i
      show (if t = buf.length then _ else _ : M _ _ _) c = _
      rw [if_neg hend]
      unfold M.sliceFrom M.sliceTo
      rw [if_pos ht]
      refine (M.bind_ok rfl).trans ?_
      rw [if_pos (Nat.min_le_right _ _), htk]
      exact M.bind_ok rfl
    -- the piece
    have hne : (buf.drop t).take z ≠ [] := List.length_pos_iff.mp (by omega)
    obtain ⟨k1, hk1⟩ := (sendPiece_total (sched := sched) (faults := faults) hn he d K A z u hu _ hne (by omega)).run c hc
    have same : ∀ f, k1 ≤ f → u.socketSend (Chip.dev sched faults).bus f ((buf.drop t).take z) c =
        u.socketSend (Chip.dev sched faults).bus k1 ((buf.drop t).take z) c := fun f hf => (le_socketSend u _ hf).run c hk1
    rcases hp : u.socketSend (Chip.dev sched faults).bus k1 ((buf.drop t).take z) c with ⟨sent | e | _ | _, c1⟩
    · obtain ⟨hs, ⟨b, h1⟩, h2⟩ := (udp_sendPiece (sched := sched) (faults := faults) hn d K A z u hu k1 _ hne (by omega)).ok hc hp
      -- the free size
      have hB := bus_returns (Chip.dev sched faults)
      have nf : NoFuel (M.mapErr (NbError.ofBus (E := E)) (u.socket.getTxFreeSize (Chip.dev sched faults).bus)) :=
        .mapErr _ (.read2 hB _ _)
      have h3 := (Hoare.mapErr (f := NbError.ofBus (E := E)) (hs_freeIdle (sched := sched) (faults := faults) hn (m := 2) (by omega) d _ A z)).run c1
        ⟨h1, h2⟩
      have h4 := nf.run c1
      unfold Socket.getTxFreeSize at h4
      rw [hu] at h4
      rcases hq : M.mapErr (NbError.ofBus (E := E)) ((Chip.dev sched faults).bus.read2 (sockOf n).register TX_FREE_SIZE) c1 with ⟨w | e | _ | _, c2⟩
      · rw [show (0x20 : U16) = TX_FREE_SIZE from rfl, hq] at h3
        obtain ⟨g1, g2⟩ := h3
        obtain ⟨k2, hk2⟩ := (ih (buf.length - (t + sent)) (by omega) (K ++ [⟨d.1, d.2, (buf.drop t).take z, b⟩]) w g2 (t + sent)
          (by rw [hs, hpl, List.length_drop]; omega) rfl).run c2 g1
        refine ⟨max k1 k2 + 1, ?_⟩
        rw [unf, M.bind_ok ((same _ (by omega)).trans hp)]
        unfold Socket.getTxFreeSize
        rw [hu]
        rw [M.bind_ok hq]
        rw [(le_sendAllLoop u buf (show k2 ≤ max k1 k2 + 1 by omega) (show k2 ≤ max k1 k2 by omega) w (t + sent)).run c2 hk2]
        exact hk2
      all_goals
        refine ⟨k1 + 1, ?_⟩
        rw [unf, M.bind_ok ((same _ (by omega)).trans hp)]
        unfold Socket.getTxFreeSize
        rw [hu, M.bind_def, hq]
      · nofun
      · nofun
      · rw [hq] at h4
        exact absurd rfl h4
    all_goals
      refine ⟨k1 + 1, ?_⟩
      rw [unf, M.bind_def, (same _ (by omega)).trans hp]
    · nofun
    · nofun
    · rw [hp] at hk1
      exact absurd rfl hk1

theorem sendAll_total {n : Nat} (hn : n < 8) (he : Emitting sched n) (d : List U8 × List U8) (K : List Packet) (A : List U8)
    (u : UdpSocket) (hu : u.socket = sockOf n) (buf : List U8) :
    Total (At n (PktIdle 2 d K A)) (fun fuel => u.socketSendAll (Chip.dev sched faults).bus fuel buf) := by
  suffices H : ∀ z, Total (At n fun s => PktIdle 2 d K A s ∧ s.txSize = z)
      (fun fuel => u.socketSendAll (Chip.dev sched faults).bus fuel buf) from ⟨fun c hc => (H _).run c ⟨hc, rfl⟩⟩
  intro z
  have hB := bus_returns (Chip.dev sched faults)
  have hP : StableS (fun s => PktIdle 2 d K A s ∧ s.txSize = z) :=
    (stable_pktIdle (by omega) d K A).and (stable_txSize z)
  have nfStatus : NoFuel (u.checkStatus (Chip.dev sched faults).bus) := by
    unfold UdpSocket.checkStatus
    refine .bind (.mapErr _ (.read1 hB _ _)) fun x => ?_
    split
    · exact .pure _
    · exact .throw _
    · exact .throw _
  unfold UdpSocket.socketSendAll Socket.getTxFreeSize
  refine .step nfStatus (hs_checkStatus hn hP u hu) fun _ => ?_
  refine .ite (fun _ => .of (.throw _)) fun _ => ?_
  rw [hu]
  refine .step (.mapErr _ (.read2 hB _ _)) (.mapErr (hs_freeIdle hn (by omega) d K A z)) fun v => .fact' fun hv => ?_
  refine .ite (fun _ => .of (.throw _)) fun hne => ?_
  refine sendLoop_total hn he d A z ?_ u hu buf K v hv 0 (Nat.zero_le _)
  rintro rfl
  exact hne (BitVec.eq_of_toNat_eq hv)

/-! ## Waiting for SENDOK -/

theorem sendOk_flag {y : U8} (h : y.getLsbD 4 = true) : decide (y &&& Interrupt.sendOk.toU8 ≠ 0) = true := by
  revert h
  show y.getLsbD 4 = true → decide (y &&& 0x10 ≠ 0) = true
  revert y
  decide +kernel

/-- If SENDOK is set after time `k`, waiting for it ends. -/
theorem wait_returns {n : Nat} (hn : n < 8) {I : Chip → Prop} (hI : Chip.Ticks sched I) {k : Nat}
    (hd : ∀ c, I c → k < c.clock → (c.socks n).ir.getLsbD 4 = true) (fuel : Nat) (c : Chip) (hc : I c)
    (hf : k + 1 - c.clock < fuel) : (RawDevice.waitSendOk (Chip.dev sched faults).bus (sockOf n) fuel c).1 ≠ .fuel := by
  induction fuel generalizing c with
  | zero => omega
  | succ f ih =>
    intro g0
    have hB := bus_returns (Chip.dev sched faults)
    unfold RawDevice.waitSendOk Socket.hasInterrupt at g0
    rcases bind_eq_fuel g0 with h | ⟨b, c1, h1, g1, _⟩
    · exact (NoFuel.bind (.read1 hB _ _) fun _ => .pure _).run c h
    rw [M.bind_eq_ok] at h1
    obtain ⟨x, c2, h2, h3⟩ := h1
    cases h3
    have i1 := (hI.read1 (faults := faults) _ _).ok hc h2
    have t1 := (Chip.read1_clock (sched := sched) (faults := faults) _ _ c.clock).ok rfl h2
    have v1 := (Chip.read1_value (sched := sched) (faults := faults) hn _).ok trivial h2
    by_cases hb : decide (x &&& Interrupt.sendOk.toU8 ≠ 0) = true
    · rw [if_pos hb] at g1
      exact nomatch g1
    · rw [if_neg hb] at g1
      refine ih c1 i1 ?_ g1
      rw [t1]
      by_cases hlt : k < c1.clock
      · rw [v1] at hb
        exact absurd (sendOk_flag (hd c1 i1 hlt)) hb
      · omega

theorem act_flag (s : Sock) (a : Act) (h : s.ir.getLsbD 4 = true) : (s.act a).ir.getLsbD 4 = true := by
  have push : ∀ bs, (s.push bs).ir.getLsbD 4 = true := by
    intro bs
    unfold Sock.push
    split
    · show (s.ir ||| 0x04).getLsbD 4 = true
      rw [BitVec.getLsbD_or, h]
      rfl
    · exact h
  cases a with
  | raise b =>
    show (s.ir ||| _).getLsbD 4 = true
    rw [BitVec.getLsbD_or, h]
    rfl
  | _ => simp only [act]; (try split) <;> first | exact h | exact push _

/-! ## TCP -/

theorem stable_tcp : StableS (fun s => s.proto = 1) := fun s a h => by
  have : (s.act a).proto = s.proto := by unfold proto; rw [act_mem]
  exact this.trans h

theorem tcpWait_total {n : Nat} (hn : n < 8) (he : Confirming sched n) :
    Total (At n fun s => s.proto = 1) (fun k => RawDevice.waitSendOk (Chip.dev sched faults).bus (sockOf n) k) := by
  constructor
  intro c hc
  obtain ⟨k, h1, b, h2, h3⟩ := he c.clock
  refine ⟨_, wait_returns hn (Chip.ticks_event (D := fun s => s.ir.getLsbD 4 = true) stable_tcp (fun s a _ => act_flag s a) h3
    fun s hs => ?_) (fun c h => h.2) _ c ⟨hc, fun h => by omega⟩ (Nat.lt_succ_self _)⟩
  show (s.ir ||| (if s.proto = 1 then b else _)).getLsbD 4 = true
  rw [if_pos hs, BitVec.getLsbD_or, h2, Bool.or_true]

/-- A send returns if its waiting does. -/
theorem tcpSend_total' {n : Nat} (hn : n < 8) (w : Nat → Nat)
    (hw : Total (At n fun s => s.proto = 1) (fun k => RawDevice.waitSendOk (Chip.dev sched faults).bus (sockOf n) (w k))) (data : List U8) :
    Total (At n fun s => s.proto = 1)
      (fun fuel => TcpSocket.socketSend (Chip.dev sched faults).bus (w fuel) ⟨sockOf n⟩ data) := by
  have hB := bus_returns (Chip.dev sched faults)
  have hP := stable_tcp
  have r2 : ∀ a, Hoare (At n fun s => s.proto = 1) (M.mapErr (TcpSocketError.other (E := E)) ((Chip.dev sched faults).bus.read2 (sockOf n).register a))
      (fun _ => At n fun s => s.proto = 1) (At n fun s => s.proto = 1) :=
    fun a => .mapErr ((hs_read2 hn hP a).post fun _ c h => h.1)
  unfold TcpSocket.socketSend TcpSocket.socketIsConnected Socket.getTxFreeSize
  refine .step (Q := fun _ => At n fun s => s.proto = 1) (R := At n fun s => s.proto = 1)
    (.bind (.mapErr _ (.read1 hB _ _)) fun _ => .pure _)
    (.bind (.mapErr (hs_read1' hn hP _)) fun _ => .pure fun _ h => h) fun b => ?_
  refine .ite (fun _ => .of (.throw _)) fun _ => ?_
  refine .step (.mapErr _ (.read2 hB _ _)) (r2 _) fun v => ?_
  dsimp only
  suffices H : ∀ wd : List U8, Total (At n fun s => s.proto = 1) (fun fuel => do
      let writePointer ← M.mapErr (TcpSocketError.other (E := E))
        (Socket.getTxWritePointer (Chip.dev sched faults).bus (sockOf n))
      M.mapErr TcpSocketError.other ((Chip.dev sched faults).bus.write (sockOf n).txBuffer writePointer wd)
      M.mapErr TcpSocketError.other (Socket.setTxWritePointer (Chip.dev sched faults).bus (sockOf n)
            (writePointer + BitVec.ofNat 16 wd.length))
      M.mapErr TcpSocketError.other (Socket.command (Chip.dev sched faults).bus (sockOf n) Command.send)
      M.mapErr TcpSocketError.other (RawDevice.waitSendOk (Chip.dev sched faults).bus (sockOf n) (w fuel))
      M.mapErr TcpSocketError.other (Socket.resetInterrupt (Chip.dev sched faults).bus (sockOf n) Interrupt.sendOk)
      pure wd.length) by
    split
    · exact H data
    · unfold M.sliceTo
      split
      · exact H _
      · exact ⟨fun _ _ => ⟨0, nofun⟩⟩
  intro wd
  refine .step (.mapErr _ (.read2 hB _ _)) (r2 _) fun p => ?_
  refine .step (Q := fun _ => At n fun s => s.proto = 1) (R := At n fun s => s.proto = 1) (.mapErr _ (.write hB _ _ _))
    (.mapErr ((hs_writeTx hn (I := fun _ s => s.proto = 1) _ _ (fun _ _ _ => hP) fun i hi s h => h).exc fun c ⟨_, _, h⟩ => h)) fun _ => ?_
  refine .step (Q := fun _ => At n fun s => s.proto = 1) (R := At n fun s => s.proto = 1) (.mapErr _ (.write hB _ _ _))
    (.mapErr ((hs_write2 (P1 := fun s => s.proto = 1) (Q := fun s => s.proto = 1) hn hP hP TX_DATA_WRITE_POINTER _
      (fun s h => h) (fun s h => h)).exc fun c h => ?_)) fun _ => ?_
  · rcases h with h | h | h <;> exact h
  unfold Socket.command
  refine .step (Q := fun _ => At n fun s => s.proto = 1) (R := At n fun s => s.proto = 1) (.mapErr _ (.write hB _ _ _))
    (.mapErr ((hs_write1 (Q := fun s => s.proto = 1) hn hP COMMAND Command.send.toU8 (fun s h => h)).exc fun c h => h.elim id id)) fun _ => ?_
  exact .andThen (.mapErr (hw)) fun _ => .bind (.mapErr _ (.write hB _ _ _)) fun _ => .pure _

theorem tcpSend_total {n : Nat} (hn : n < 8) (he : Confirming sched n) (data : List U8) :
    Total (At n fun s => s.proto = 1)
      (fun fuel => TcpSocket.socketSend (Chip.dev sched faults).bus fuel ⟨sockOf n⟩ data) :=
  tcpSend_total' hn (fun k => k) (tcpWait_total hn he) data

/-! ## MACRAW -/

/-- SENDOK is to come, or is there. -/
def OnTheWay (s : Sock) : Prop := s.owed.getLsbD 4 = true ∨ s.ir.getLsbD 4 = true

theorem act_onTheWay (s : Sock) (a : Act) (hp : s.proto ≠ 1) (h : OnTheWay s) : OnTheWay (s.act a) := by
  rcases h with h | h
  · cases a with
    | raise b =>
      have e1 : (s.act (.raise b)).owed.getLsbD 4 = (s.owed.getLsbD 4 && !b.getLsbD 4) := by
        show (s.owed &&& ~~~b).getLsbD 4 = _
        rw [BitVec.getLsbD_and, BitVec.getLsbD_not]
        simp
      have e2 : (s.act (.raise b)).ir.getLsbD 4 = (s.ir.getLsbD 4 || (b.getLsbD 4 && s.owed.getLsbD 4)) := by
        show (s.ir ||| (if s.proto = 1 then b else b &&& (s.owed ||| 0xE7))).getLsbD 4 = _
        rw [if_neg hp, BitVec.getLsbD_or, BitVec.getLsbD_and, BitVec.getLsbD_or]
        simp
      unfold OnTheWay
      rw [e1, e2, h]
      cases b.getLsbD 4 <;> simp
    | emit b =>
      left
      simp only [act]
      split
      · show (s.owed ||| _).getLsbD 4 = true
        rw [BitVec.getLsbD_or, h]
        rfl
      · exact h
    | _ => left; simp only [act, Sock.push]; (repeat' split) <;> exact h
  · exact .inr (act_flag s a h)

/-- A frame was handed to a chip that drops nothing. -/
def RawSafe (d : List U8 × List U8) (K : List Packet) (p : U16) (frame : List U8) (s : Sock) : Prop :=
  PktSent 4 d K p frame s ∧ (s.txRd = s.txLimit → OnTheWay s)

theorem act_rawSafe {d : List U8 × List U8} {K : List Packet} {p : U16} {frame : List U8} (s : Sock) (a : Act)
    (ha : a ≠ .emit false) (h : RawSafe d K p frame s) : RawSafe d K p frame (s.act a) := by
  refine ⟨stable_pktSent (.inr rfl) d K p frame s a h.1, fun hd => ?_⟩
  have hp : s.proto ≠ 1 := by rw [h.1.mode]; decide
  by_cases hs : s.txRd = s.txLimit
  · exact act_onTheWay s a hp (h.2 hs)
  · -- it left just now
    cases a with
    | emit b =>
      cases b with
      | false => exact absurd rfl ha
      | true =>
        left
        have hc : (s.proto = 2 ∨ s.proto = 4) ∧ s.txRd ≠ s.txLimit := ⟨.inr h.1.mode, hs⟩
        simp only [act, if_pos hc]
        show (s.owed ||| 0x10).getLsbD 4 = true
        rw [BitVec.getLsbD_or]
        simp
    | transmit k => rw [act_txLimit] at hd; simp only [act, if_neg hp] at hd; exact absurd hd hs
    | _ =>
      rw [act_txLimit] at hd
      refine absurd ?_ hs
      rw [← hd]
      simp only [act, Sock.push]
      repeat' split
      all_goals rfl

theorem emit_safe {d : List U8 × List U8} {K : List Packet} {p : U16} {frame : List U8} {b : Bool} (s : Sock) (hb : Act.emit b ≠ .emit false)
    (h : RawSafe d K p frame s) : OnTheWay (s.act (.emit b)) :=
  (act_rawSafe s _ hb h).2 (emit_done (.inr rfl) s h.1)

theorem rawWait_total {n : Nat} (hn : n < 8) (he : Emitting sched n) (hc : Confirming sched n) (hl : Lossless sched n)
    (d : List U8 × List U8) (K : List Packet) (p : U16) (frame : List U8) :
    Total (At n (RawSafe d K p frame)) (fun k => RawDevice.waitSendOk (Chip.dev sched faults).bus (sockOf n) k) := by
  constructor
  intro c h0
  obtain ⟨k, h1, b, h2⟩ := he c.clock
  obtain ⟨k', h3, x, h4, h5⟩ := hc (k + 1)
  have hno : ∀ {j a}, (n, a) ∈ sched j → a ≠ .emit false := fun {j a} h e => hl j (e ▸ h)
  have hI := Chip.ticks_events (sched := sched) (n := n) (P := RawSafe d K p frame) (D := OnTheWay) (D' := fun s => s.ir.getLsbD 4 = true)
    (fun j s a ha h => act_rawSafe s a (hno ha) h) (fun j s a ha h => act_onTheWay s a (by rw [h.1.mode]; decide))
    (fun j s a _ _ => act_flag s a) h3 h2 h5 (fun s h => emit_safe s (hno h2) h) (fun s h hw => ?_)
  · exact ⟨_, wait_returns hn hI (fun c h => h.2.2) _ c ⟨h0, fun h => by omega, fun h => by omega⟩ (Nat.lt_succ_self _)⟩
  · have hp : s.proto ≠ 1 := by rw [h.1.mode]; decide
    show (s.ir ||| (if s.proto = 1 then x else x &&& (s.owed ||| 0xE7))).getLsbD 4 = true
    rw [if_neg hp, BitVec.getLsbD_or, BitVec.getLsbD_and, BitVec.getLsbD_or, h4]
    rcases hw with hw | hw <;> rw [hw] <;> simp

/-- Writing a frame returns if its waiting does. -/
theorem rawWrite_total' {n : Nat} (hn : n < 8) (w : Nat → Nat)
    (hw : ∀ d K p frame, Total (At n (RawSafe d K p frame)) (fun k => RawDevice.waitSendOk (Chip.dev sched faults).bus (sockOf n) (w k)))
    (r : RawDevice) (hr : r.rawSocket = sockOf n) (K : List Packet) (A : List U8) (z : Nat) (fs : List (List U8))
    (frame : List U8) (hf : frame ≠ []) (hz : frame.length ≤ z) :
    Total (At n (RawIdle K A z fs)) (fun fuel => r.writeFrame (Chip.dev sched faults).bus (w fuel) frame) := by
  have hB := bus_returns (Chip.dev sched faults)
  unfold RawDevice.writeFrame Socket.resetInterrupt TxCursor.new Socket.getTxFreeSize Socket.getTxWritePointer
  rw [hr]
  suffices H : ∀ d, Total (At n fun s => RawTx d K A z fs s ∧ s.txWr = s.txLimit) _ from
    .step (.write hB _ _ _) (hs_write1 (Q := fun s => ∃ d, RawTx d K A z fs s ∧ s.txWr = s.txLimit) hn (stable_rawIdle K A z fs) _ _
      (fun s h => ⟨s.dest, by
        have he : s.pokeReg INTERRUPT Interrupt.sendOk.toU8 = { s with ir := s.ir &&& ~~~0x10 } := rfl
        rw [he]
        have h' := h.ir (s.ir &&& ~~~0x10)
        refine ⟨⟨h'.busy.base, h'.busy.size, h'.busy.owed, ?_, ⟨h'.busy.core, h'.reg⟩, h'.busy.queue⟩, h'.busy.wr⟩
        show (s.ir &&& ~~~0x10).getLsbD 4 = false
        rw [BitVec.getLsbD_and]
        simp⟩)) fun _ => ⟨fun c ⟨d, h⟩ => (H d).run c h⟩
  intro d
  have hP : StableS (fun s => RawTx d K A z fs s ∧ s.txWr = s.txLimit) := fun s a h =>
    ⟨(frame_rawTx d K A z fs).stable s a h.1, by rw [act_txWr, act_txLimit]; exact h.2⟩
  have hG := frame_rawTx d K A z fs
  refine .step (Q := fun c => fun w => (c.sock = sockOf n ∧ c.size.toNat = z) ∧
      At n (fun s => (RawTx d K A z fs s ∧ s.txWr = s.txLimit) ∧ s.txWr = c.ptr) w) (R := fun _ => True)
    (.bind (.read2 hB _ _) fun _ => .bind (.read2 hB _ _) fun _ => .pure _)
    (.bind (Q := fun v w => v.toNat = z ∧ At n (fun s => RawTx d K A z fs s ∧ s.txWr = s.txLimit) w)
      (.exc (.post (hs_readFree hn hP fun s h => ⟨h.1.base.txBase, h.2⟩) ?_) fun _ _ => trivial) fun v => .fact fun hv =>
      .bind (.exc (hs_readMem hn hP _ (.inl rfl)) fun _ _ => trivial) fun p => .pure fun c h => ⟨⟨rfl, hv⟩, h.1, h.2.symm⟩) fun c => ?_
  · rintro v c ⟨h1, _, s1, s2, p1, p2, _, _, h2, _⟩
    refine ⟨?_, h1⟩
    have f : ∀ s, RawTx d K A z fs s ∧ s.txWr = s.txLimit → s.fsr.toNat = z := by
      intro s h
      rw [fsr_eq h.1.base.txBase h.2, h.1.base.used, Nat.sub_zero]
      exact h.1.size
    rw [h2, f s1 p1, f s2 p2]
    omega
  refine .pre (.fact' (P := At n (fun s => (RawTx d K A z fs s ∧ s.txWr = s.txLimit) ∧ s.txWr = c.ptr))
    (p := c.sock = sockOf n ∧ c.size.toNat = z) fun hcs => ?_) fun _ h => ⟨h.2, h.1⟩
  obtain ⟨sock, p, size⟩ := c
  obtain ⟨rfl, hsz⟩ := hcs
  dsimp only at hsz ⊢
  unfold TxCursor.write TxCursor.available TxCursor.commit
  dsimp only
  have hfit : ¬ (frame.isEmpty || decide (frame.length > size.toNat)) = true := by
    rw [Bool.or_eq_true, not_or]
    refine ⟨fun h => hf (List.isEmpty_iff.mp h), fun h => ?_⟩
    have := of_decide_eq_true h
    omega
  have hlen : (BitVec.ofNat 16 frame.length).toNat = frame.length := by
    rw [BitVec.toNat_ofNat]
    have := size.isLt
    omega
  rw [if_neg hfit]
  unfold M.sliceTo
  rw [hlen, if_pos (Nat.le_refl _), List.take_length]
  refine .step (Q := fun x w => x = (BitVec.ofNat 16 frame.length, ⟨sockOf n, p + BitVec.ofNat 16 frame.length,
        size - BitVec.ofNat 16 frame.length⟩) ∧ At n (fun s => RawTx d K A z fs s ∧ s.txWr = p ∧ s.txLimit = p ∧
          s.used + frame.length ≤ s.txSize ∧ ring s.txMem s.txSize p frame.length = frame) w) (R := fun _ => True)
    (.bind (.pure _) fun _ => .bind (.write hB _ _ _) fun _ => .pure _)
    (.bind (Q := fun x w => x = frame ∧ At n (fun s => RawTx d K A z fs s ∧ s.txWr = p ∧ s.txLimit = p ∧
          s.used + frame.length ≤ s.txSize) w) (.pure fun c h => ⟨rfl, h.1.1, h.2, h.1.2.symm.trans h.2, ?_⟩) fun x => .fact fun hx => ?_)
    fun x => ?_
  · rw [h.1.1.base.used, h.1.1.size, Nat.zero_add]
    exact hz
  · subst hx
    exact .bind ((hs_payload hn hG p x).exc fun _ _ => trivial) fun _ => .pure fun c h => ⟨rfl, h⟩
  refine .pre (.fact' (P := At n (fun s => RawTx d K A z fs s ∧ s.txWr = p ∧ s.txLimit = p ∧
          s.used + frame.length ≤ s.txSize ∧ ring s.txMem s.txSize p frame.length = frame)) fun hx => ?_) fun _ h => ⟨h.2, h.1⟩
  subst hx
  dsimp only
  unfold Socket.setTxWritePointer Socket.command
  have hstG : StableS (fun s => RawTx d K A z fs s ∧
      s.txWr = p + BitVec.ofNat 16 frame.length ∧ s.txLimit = p ∧
      s.used + frame.length ≤ s.txSize ∧ ring s.txMem s.txSize p frame.length = frame) := by
    rintro s a ⟨h1, h2, h3, h4, h5⟩
    have := (act_txBase h1.base.txBase a).2
    exact ⟨hG.stable s a h1, by rw [act_txWr]; exact h2, by rw [act_txLimit]; exact h3,
      by rw [act_txSize]; omega, by rw [act_txMem, act_txSize]; exact h5⟩
  refine .step (Q := fun _ => At n (RawSafe d K p frame)) (R := fun _ => True)
    (.bind (.write hB _ _ _) fun _ => .write hB _ _ _)
    (.bind ((hs_advance hn hG p frame).exc fun _ _ => trivial) fun _ =>
      (hs_write1 (Q := RawSafe d K p frame) hn hstG _ _ fun s h => ?_).exc fun _ _ => trivial) fun _ => ?_
  · obtain ⟨h1, h2, h3, h4, h5⟩ := h
    have hs := send_pkt h1.base hf h2 h3 h4 h5
    refine ⟨hs, fun hd => ?_⟩
    have e1 : s.txRd = p := h1.base.rd.trans h3
    have e2 : s.txRd = s.txWr := hd
    exact absurd (e1.symm.trans (e2.trans h2)) (advanced_ne hs.len)
  · exact .andThen (hw d K p frame) fun _ => .pure _

theorem rawWrite_total {n : Nat} (hn : n < 8) (he : Emitting sched n) (hc : Confirming sched n) (hl : Lossless sched n)
    (r : RawDevice) (hr : r.rawSocket = sockOf n) (K : List Packet) (A : List U8) (z : Nat) (fs : List (List U8))
    (frame : List U8) (hf : frame ≠ []) (hz : frame.length ≤ z) :
    Total (At n (RawIdle K A z fs)) (fun fuel => r.writeFrame (Chip.dev sched faults).bus fuel frame) :=
  rawWrite_total' hn (fun k => k) (rawWait_total hn he hc hl) r hr K A z fs frame hf hz

end W5500.Spec
