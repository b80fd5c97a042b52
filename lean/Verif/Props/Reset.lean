import Verif.Proofs.Reset
/-! # A chip that is reset in the middle of a call: C106 -/

namespace W5500.Props
open W5500 W5500.Spec
variable {W E H : Type} {sched : Nat → List (Nat × Act)} {faults : Nat → Option (E × Nat)}

theorem resetting_faultless (lose : Nat → Bool) (hf : ∀ i, faults i = none) :
    Faultless (resetting lose (Chip.dev sched faults).bus) :=
  ⟨fun _ _ _ _ => (faultless_chip (sched := sched) hf).1 _ _ _ _, fun _ _ _ _ => (faultless_chip (sched := sched) hf).2 _ _ _ _⟩

theorem resetting_writeAll (lose : Nat → Bool) (l : List Wr) (c : Chip) :
    (writeAll (resetting lose (Chip.dev sched faults).bus) l c).1 = .ok () ∨
    ∃ e, (writeAll (resetting lose (Chip.dev sched faults).bus) l c).1 = .err e := by
  induction l generalizing c with
  | nil => exact .inl rfl
  | cons x l ih =>
    unfold writeAll
    rw [M.bind_def]
    have h : ((resetting lose (Chip.dev sched faults).bus).write x.1 x.2.1 x.2.2 c).1 = .ok () ∨
        ∃ e, ((resetting lose (Chip.dev sched faults).bus).write x.1 x.2.1 x.2.2 c).1 = .err e := by
      unfold Bus.write resetting
      simp only [ByteDev.bus]
      split
      · exact .inl rfl
      · exact .inr ⟨_, rfl⟩
    generalize (resetting lose (Chip.dev sched faults).bus).write x.1 x.2.1 x.2.2 c = r at h
    obtain ⟨_ | e | _ | _, c'⟩ := r
    · exact ih c'
    · exact .inr ⟨e, rfl⟩
    · rcases h with h | ⟨e, h⟩ <;> cases h
    · rcases h with h | ⟨e, h⟩ <;> cases h

/-- One call on a closed socket of a chip that may be reset again. -/
theorem use_gone_resetting {n : Nat} (hn : n < 8) (hq : StatusIn sched n (· = 0)) (lose : Nat → Bool) {S : List U8}
    {P : List Packet} {A : List U8} (fuel : Nat) (u : Use) (d : Device Chip H) (hd : At n (Gone S P A) d.bus) :
    (u.run (resetting lose (Chip.dev sched faults).bus) fuel n d).1 = .notOpen ∨
      ∃ e, (u.run (resetting lose (Chip.dev sched faults).bus) fuel n d).1 = .bus e ∧ ∃ i, faults i ≠ none := by
  generalize hB : resetting lose (Chip.dev sched faults).bus = B
  have hst : ∀ c : Chip, At n (Gone S P A) c → (∃ c', B.readFrame c (sockOf n).register 0x03 [0] = (.ok (), [0], c')) ∨
      ∃ e dd c', B.readFrame c (sockOf n).register 0x03 [0] = (.err e, dd, c') ∧ ∃ i, faults i ≠ none := by
    intro c hc
    subst hB
    rcases gone_status (faults := faults) hn (gone_stays hq S P A) (fun _ h => h.1) (gone_lose (lose c.txn) hc) with
      ⟨c', h1, _⟩ | ⟨e, dd, c', h1, _, h3⟩
    · exact .inl ⟨c', h1⟩
    · exact .inr ⟨e, dd, c', h1, h3⟩
  have send : ∀ (dest : Option SockAddr4) (port : U16) (data : List U8) (d : Device Chip H), At n (Gone S P A) d.bus →
      Answer.udp (Device.udpSend B fuel ⟨sockOf n, dest, port⟩ data d).1 = .notOpen ∨
      ∃ e, Answer.udp (Device.udpSend B fuel ⟨sockOf n, dest, port⟩ data d).1 = .bus e ∧ ∃ i, faults i ≠ none := by
    intro dest port data d hd
    rcases hst _ hd with ⟨c', h1⟩ | ⟨e, dd, c', h1, h3⟩
    · rw [C35_status_partial _ fuel ⟨sockOf n, dest, port⟩ data d 0 c' h1 (by decide)]
      exact .inl rfl
    · rw [use_udpSend_err (u := ⟨sockOf n, dest, port⟩) h1]
      exact .inr ⟨e, rfl, h3⟩
  cases u with
  | tcpSend data =>
    dsimp only [Use.run]
    rcases hst _ hd with ⟨c', h1⟩ | ⟨e, dd, c', h1, h3⟩
    · rw [(C44_send _ fuel ⟨sockOf n⟩ data d).2 0 c' h1 (by decide)]
      exact .inl rfl
    · rw [use_tcpSend_err (t := ⟨sockOf n⟩) h1]
      exact .inr ⟨e, rfl, h3⟩
  | tcpReceive buf =>
    dsimp only [Use.run]
    rcases hst _ hd with ⟨c', h1⟩ | ⟨e, dd, c', h1, h3⟩
    · rw [(C44_receive _ fuel ⟨sockOf n⟩ buf d).2 0 c' h1 (by decide)]
      exact .inl rfl
    · rw [use_tcpReceive_err (t := ⟨sockOf n⟩) h1]
      exact .inr ⟨e, rfl, h3⟩
  | udpSend dest port data => exact send dest port data d hd
  | udpSendTo dest port remote data =>
    dsimp only [Use.run]
    have hw := gone_reach (lose := lose) (faults := faults) (c := d.bus) hn hq
      ((usesFrames_dest ⟨sockOf n, dest, port⟩ remote).run d.bus) hd
    have he := resetting_writeAll (sched := sched) (faults := faults) lose (destScript ⟨sockOf n, dest, port⟩ remote) d.bus
    have hne := fun hf => noerr_writeAll (resetting_faultless (sched := sched) (faults := faults) lose hf)
      (destScript ⟨sockOf n, dest, port⟩ remote)
    rw [hB] at hw he
    rcases he with h | ⟨e, h⟩
    · rw [C35_send_to B fuel ⟨sockOf n, dest, port⟩ remote data d _ (Prod.ext h rfl)]
      exact send (some remote) port data _ hw
    · rw [use_udpSendTo_err (fuel := fuel) (u := ⟨sockOf n, dest, port⟩) (data := data) (d := d) (Prod.ext h rfl)]
      refine .inr ⟨e, rfl, Classical.byContradiction fun hf => ?_⟩
      have hf : ∀ i, faults i = none := fun i => Classical.byContradiction fun h => hf ⟨i, h⟩
      have := (hne hf).run d.bus e
      rw [hB] at this
      exact this h
  | udpReceive dest port buf =>
    dsimp only [Use.run]
    rcases hst _ hd with ⟨c', h1⟩ | ⟨e, dd, c', h1, h3⟩
    · rw [use_udpReceive (u := ⟨sockOf n, dest, port⟩) (checkStatus_other h1 (by decide))]
      exact .inl rfl
    · rw [use_udpReceive (u := ⟨sockOf n, dest, port⟩) (checkStatus_err h1)]
      exact .inr ⟨e, rfl, h3⟩

/-- C106, the part that holds. If the chip is reset at any moment of a call on a TCP or UDP socket (`send`, `send_to`, `receive`),
once or repeatedly, then the socket is closed after the call, and every call that follows tells the program: it ends with "not
open", or with a bus error if transfers fail. Nothing is transmitted or received by these, and the socket stays closed, also if
the chip is reset again. Missing: that the call itself tells, see `C106_refuted_send`, `C106_refuted_receive` and
`C106_refuted_hang`. -/
theorem C106_partial {n : Nat} (hn : n < 8) (hq : StatusIn sched n (· = 0)) (lose : Nat → Bool) (fuel : Nat) (u : Use)
    (us : List Use) (d : Device Chip H) :
    let B := resetting lose (Chip.dev sched faults).bus
    let r := u.run B fuel n d
    let rs := uses B fuel n us r.2
    WasReset lose d.bus r.2.bus →
    (r.2.bus.socks n).sr = 0 ∧ (∀ a ∈ rs.1, a = .notOpen ∨ ∃ e, a = .bus e) ∧
    ((∀ i, faults i = none) → ∀ a ∈ rs.1, a = .notOpen) ∧ rs.1.length = us.length ∧
    (rs.2.bus.socks n).sr = 0 ∧ (rs.2.bus.socks n).stream = (r.2.bus.socks n).stream ∧
    (rs.2.bus.socks n).packets = (r.2.bus.socks n).packets ∧ (rs.2.bus.socks n).arrived = (r.2.bus.socks n).arrived := by
  have key : ∀ (S : List U8) (P : List Packet) (A : List U8) (us : List Use) (d : Device Chip H), At n (Gone S P A) d.bus →
      let r := uses (resetting lose (Chip.dev sched faults).bus) fuel n us d
      (∀ a ∈ r.1, a = .notOpen ∨ ∃ e, a = .bus e ∧ ∃ i, faults i ≠ none) ∧ r.1.length = us.length ∧ At n (Gone S P A) r.2.bus := by
    intro S P A us
    induction us with
    | nil => exact fun d hd => ⟨fun _ h => (nomatch h), rfl, hd⟩
    | cons u us ih =>
      intro d hd
      have h1 := use_gone_resetting (faults := faults) hn hq lose fuel u d hd
      have h2 := gone_reach (lose := lose) (faults := faults) hn hq (usesFrames_run fuel n u d) hd
      obtain ⟨h4, h5, h6⟩ := ih _ h2
      refine ⟨fun a ha => ?_, congrArg (· + 1) h5, h6⟩
      rcases List.mem_cons.mp ha with rfl | ha
      · exact h1
      · exact h4 a ha
  intro B r rs hr
  obtain ⟨S, P, A, h0⟩ := gone_reset (lose := lose) (faults := faults) hn hq (usesFrames_run fuel n u d) hr
  obtain ⟨h1, h2, h3⟩ := key _ _ _ us r.2 h0
  refine ⟨h0.1, fun a ha => (h1 a ha).imp_right fun ⟨e, h, _⟩ => ⟨e, h⟩, fun hf a ha => ?_, h2, h3.1, ?_, ?_, ?_⟩
  · rcases h1 a ha with h | ⟨_, _, i, hi⟩
    · exact h
    · exact absurd (hf i) hi
  · exact h3.2.2.trans h0.2.2.symm
  · exact h3.2.3.trans h0.2.3.symm
  · exact h3.2.4.trans h0.2.4.symm

/-! ## The call itself -/

/-- A socket without protocol that announces no transmission and has none to announce. -/
structure Mute (s : Sock) : Prop where
  proto : s.mem 0x00 = 0
  owed : s.owed = 0
  quiet : s.ir.getLsbD 4 = false

theorem mute_stays (n : Nat) : Stays sched n Mute := by
  intro k a _ s h
  have hp : s.proto = 0 := by unfold Sock.proto; rw [h.proto]; rfl
  cases a with
  | raise b =>
    refine ⟨h.proto, ?_, ?_⟩
    · show s.owed &&& _ = 0
      rw [h.owed]
      exact BitVec.zero_and
    · show (s.ir ||| _).getLsbD 4 = false
      rw [if_neg (by rw [hp]; decide), h.owed, BitVec.getLsbD_or, h.quiet, BitVec.getLsbD_and]
      simp
  | status b => exact ⟨h.proto, h.owed, h.quiet⟩
  | _ => simpa [Sock.act, hp] using h

theorem mute_frame {n : Nat} (hn : n < 8) {b : U8} {a : U16} {d : List U8} (hf : SendFrames (sockOf n) b a d) (c : Chip)
    (hc : At n Mute c) : At n Mute ((Chip.dev sched faults).bus.writeFrame c b a d).2 := by
  have done : ∀ {b : U8} {a : U16} {d : List U8},
      Hoare (At n Mute) ((Chip.dev sched faults).bus.write b a d) (fun _ => At n Mute) (At n Mute) →
      At n Mute ((Chip.dev sched faults).bus.writeFrame c b a d).2 := by
    intro b a d h
    have := h.run c hc
    unfold Bus.write at this
    generalize (Chip.dev sched faults).bus.writeFrame c b a d = r at this
    obtain ⟨_ | _ | _ | _, c'⟩ := r <;> exact this
  have one : ∀ (a : U16) (x : U8), (∀ s, Mute s → Mute (s.pokeReg a x)) →
      At n Mute ((Chip.dev sched faults).bus.writeFrame c (sockOf n).register a [x]).2 := by
    intro a x h
    refine done ((mute_stays n).writeReg hn a [x] fun i hi s hs => ?_)
    have : i = 0 := by simp at hi; omega
    subst this
    rw [show a + BitVec.ofNat 16 0 = a from BitVec.add_zero _]
    exact h s hs
  cases hf with
  | tx a d => exact done ((mute_stays n).writeTx hn a d fun s a x h => ⟨h.1, h.2, h.3⟩)
  | wr x y =>
    refine done ((mute_stays n).writeReg hn _ _ fun i hi s h => ?_)
    have : i = 0 ∨ i = 1 := by simp at hi; omega
    rcases this with rfl | rfl <;> exact ⟨h.1, h.2, h.3⟩
  | ir x =>
    refine one _ _ fun s h => ⟨h.1, h.2, ?_⟩
    show (s.ir &&& _).getLsbD 4 = false
    rw [BitVec.getLsbD_and, h.quiet]
    rfl
  | send => exact one _ _ fun s h => ⟨h.1, h.2, h.3⟩

theorem mute_lose {n : Nat} {c : Chip} (b : Bool) (h : At n Mute c) : At n Mute (if b then c.powerCycle else c) := by
  cases b
  · exact h
  · exact ⟨rfl, rfl, BitVec.getLsbD_zero⟩

theorem mute_moves {n : Nat} (hn : n < 8) {lose : Nat → Bool} {ε α : Type} {m : M Chip ε α}
    (h : MovesOn (resetting lose (Chip.dev sched faults).bus) (SendFrames (sockOf n)) id m) :
    Hoare (At n Mute) m (fun _ => At n Mute) (At n Mute) := by
  constructor
  intro c hc
  have := (h.run c).induct (I := At n Mute) (fun _ _ _ _ hw => (mute_stays n).ticks.readFrame _ _ _ _ (mute_lose _ hw))
    (fun _ _ _ _ hf hw => mute_frame hn hf _ (mute_lose _ hw)) hc
  generalize m c = r at this
  obtain ⟨_ | _ | _ | _, c'⟩ := r <;> exact this

/-- TCP `send` after the status, and after the free space was determined. -/
def sendTail (B : Bus W E) (fuel : Nat) (t : TcpSocket) (wd : List U8) : M W (TcpSocketError E) Nat := do
  let writePointer ← M.mapErr .other (t.socket.getTxWritePointer B)
  M.mapErr .other (B.write t.socket.txBuffer writePointer wd)
  M.mapErr .other (t.socket.setTxWritePointer B (writePointer + BitVec.ofNat 16 wd.length))
  M.mapErr .other (t.socket.command B .send)
  M.mapErr .other (RawDevice.waitSendOk B t.socket fuel)
  M.mapErr .other (t.socket.resetInterrupt B .sendOk)
  pure wd.length

def sendRest (B : Bus W E) (fuel : Nat) (t : TcpSocket) (data : List U8) : M W (TcpSocketError E) Nat := do
  let maxSize ← M.mapErr .other (t.socket.getTxFreeSize B)
  if data.length < maxSize.toNat then sendTail B fuel t data
  else M.sliceTo data maxSize.toNat >>= sendTail B fuel t

theorem socketSend_rest {B : Bus W E} {t : TcpSocket} {w w' : W} (fuel : Nat) (data : List U8)
    (h : t.socketIsConnected B w = (.ok true, w')) : t.socketSend B fuel data w = sendRest B fuel t data w' := by
  unfold TcpSocket.socketSend
  exact (M.bind_ok h).trans rfl

theorem noerr_sendTail {B : Bus W E} (hB : Faultless B) (t : TcpSocket) (fuel : Nat) (wd : List U8) :
    ErrIn (fun _ => False) (sendTail B fuel t wd) := by
  unfold sendTail Socket.getTxWritePointer Socket.setTxWritePointer Socket.command Socket.resetInterrupt
  exact .bind (.mapErr' (.read2 hB _ _)) fun _ => .bind (.mapErr' (.write hB _ _ _)) fun _ => .bind (.mapErr' (.write hB _ _ _)) fun _ =>
    .bind (.mapErr' (.write hB _ _ _)) fun _ => .bind (.mapErr' (noerr_waitSendOk hB _ _)) fun _ =>
    .bind (.mapErr' (.write hB _ _ _)) fun _ => .pure _

theorem noerr_sendRest {B : Bus W E} (hB : Faultless B) (t : TcpSocket) (fuel : Nat) (data : List U8) :
    ErrIn (fun _ => False) (sendRest B fuel t data) := by
  unfold sendRest Socket.getTxFreeSize
  refine .bind (.mapErr' (.read2 hB _ _)) fun x => ?_
  split
  · exact noerr_sendTail hB t fuel _
  · exact .bind (.sliceTo _ _) fun _ => noerr_sendTail hB t fuel _

/-- The loop that waits for SENDOK does not end. -/
theorem mute_wait {n : Nat} (hn : n < 8) (lose : Nat → Bool) (fuel : Nat) :
    Hoare (At n Mute) (RawDevice.waitSendOk (resetting lose (Chip.dev sched faults).bus) (sockOf n) fuel) (fun _ _ => False)
      (fun _ => True) := by
  induction fuel with
  | zero => exact .outOfFuel fun _ _ => trivial
  | succ k ih =>
    unfold RawDevice.waitSendOk Socket.hasInterrupt
    refine .bind (Q := fun b c => b = false ∧ At n Mute c) (.bind (Q := fun x c => x.getLsbD 4 = false ∧ At n Mute c) ?_ fun x => .pure ?_)
      fun b => ?_
    · constructor
      intro c hc
      have h := (Hoare.and ((mute_stays (sched := sched) n).ticks.read1 (faults := faults) (sockOf n).register 0x02)
        (Chip.read1_value (sched := sched) (faults := faults) hn 0x02)).run _ ⟨mute_lose (lose c.txn) hc, trivial⟩
      show Res.post _ _ ((Chip.dev sched faults).bus.read1 (sockOf n).register 0x02 (if lose c.txn then c.powerCycle else c))
      generalize (Chip.dev sched faults).bus.read1 (sockOf n).register 0x02 (if lose c.txn then c.powerCycle else c) = r at h
      obtain ⟨x | _ | _ | _, c'⟩ := r
      · refine ⟨?_, h.1⟩
        rw [h.2]
        exact h.1.quiet
      · trivial
      · trivial
      · trivial
    · rintro c ⟨h1, h2⟩
      exact ⟨decide_eq_false fun hne => hne (bit4_zero x h1), h2⟩
    · constructor
      rintro c ⟨rfl, hc⟩
      exact ih.run c hc

theorem mute_tail {n : Nat} (hn : n < 8) (lose : Nat → Bool) (fuel : Nat) (wd : List U8) :
    Hoare (At n Mute) (sendTail (resetting lose (Chip.dev sched faults).bus) fuel ⟨sockOf n⟩ wd) (fun _ _ => False) (fun _ => True) := by
  have h : ∀ {α : Type} {m : M Chip E α}, MovesOn (resetting lose (Chip.dev sched faults).bus) (SendFrames (sockOf n)) id m →
      Hoare (At n Mute) (M.mapErr TcpSocketError.other m) (fun _ => At n Mute) (fun _ => True) :=
    fun hm => .exc (.mapErr (mute_moves hn hm)) fun _ _ => trivial
  unfold sendTail
  refine .bind (h ?_) fun _ => .bind (h (.write (.tx _ _))) fun _ => .bind (h (.write (.wr _ _))) fun _ => .bind (h (.write .send)) fun _ =>
    .bind (Q := fun _ _ => False) (.mapErr (mute_wait hn lose fuel)) fun _ => ⟨fun _ h => h.elim⟩
  unfold Socket.getTxWritePointer
  moves

/-- C106 is false of the call itself: if the chip is reset right after TCP `send` found the connection established, `send` does not
return, whatever the network does and however often the chip is reset afterwards: it waits for an interrupt that the chip has no
reason to raise. (No transfer fails.) -/
theorem C106_refuted_hang {n : Nat} (hn : n < 8) (hf : ∀ i, faults i = none) (lose : Nat → Bool) (fuel : Nat) (data : List U8)
    (d : Device Chip H) (c1 : Chip) (h0 : lose d.bus.txn = false) (h1 : lose (d.bus.txn + 1) = true)
    (hs : (Chip.dev sched faults).bus.readFrame d.bus (Socket.new (BitVec.ofNat 8 n)).register 0x03 [0] = (.ok (), [0x17], c1)) :
    (Device.tcpSend (resetting lose (Chip.dev sched faults).bus) fuel ⟨Socket.new (BitVec.ofNat 8 n)⟩ data d).1 = .fuel := by
  have hB := resetting_faultless (sched := sched) (faults := faults) lose hf
  have hC : Calm (resetting lose (Chip.dev sched faults).bus) :=
    ⟨fun _ _ _ _ => (calm_bus (Chip.dev sched faults)).1 _ _ _ _, fun _ _ _ _ => (calm_bus (Chip.dev sched faults)).2 _ _ _ _⟩
  have ht : c1.txn = d.bus.txn + 1 := by
    have := Chip.readFrame_txn (sched := sched) (faults := faults) d.bus (sockOf n).register 0x03 [0]
    rwa [hs] at this
  have hconn : (⟨sockOf n⟩ : TcpSocket).socketIsConnected (resetting lose (Chip.dev sched faults).bus) d.bus = (.ok true, c1) := by
    have : (resetting lose (Chip.dev sched faults).bus).readFrame d.bus (sockOf n).register 0x03 [0] = (.ok (), [0x17], c1) := by
      show (Chip.dev sched faults).bus.readFrame (if lose d.bus.txn then _ else _) _ _ _ = _
      rw [h0]
      exact hs
    unfold TcpSocket.socketIsConnected
    exact (M.bind_ok (M.mapErr_ok (read1_ok this))).trans rfl
  have np := (np_deviceTcpSend hC fuel ⟨sockOf n⟩ data).run d
  have ne := (noerr_sendRest hB ⟨sockOf n⟩ fuel data).run c1
  have nok : Hoare (fun c : Chip => c = c1) (sendRest (resetting lose (Chip.dev sched faults).bus) fuel ⟨sockOf n⟩ data)
      (fun _ _ => False) (fun _ => True) := by
    unfold sendRest
    refine .bind (Q := fun _ => At n Mute) (.mapErr ⟨?_⟩) fun x => ?_
    · intro c hc
      rw [hc]
      have h := ((mute_stays (sched := sched) n).ticks.read2 (faults := faults) (sockOf n).register 0x20).run c1.powerCycle ⟨rfl, rfl, BitVec.getLsbD_zero⟩
      show Res.post _ _ ((Chip.dev sched faults).bus.read2 (sockOf n).register 0x20 (if lose c1.txn then c1.powerCycle else c1))
      rw [ht, h1]
      exact Hoare.post_mono (fun _ _ h => h) (fun _ _ => trivial) h
    · split
      · exact mute_tail hn lose fuel _
      · refine .bind (Q := fun _ => At n Mute) ?_ fun _ => mute_tail hn lose fuel _
        constructor
        intro c hc
        unfold M.sliceTo
        split
        · exact hc
        · trivial
  have nok := nok.run c1 rfl
  revert np
  unfold Device.tcpSend Device.onBus M.zoom
  dsimp only
  rw [socketSend_rest fuel data hconn]
  generalize sendRest (resetting lose (Chip.dev sched faults).bus) fuel ⟨sockOf n⟩ data c1 = r at ne nok ⊢
  obtain ⟨k | e | _ | _, c'⟩ := r
  · exact nok.elim
  · exact (ne e rfl).elim
  · exact fun h => absurd rfl h
  · exact fun _ => rfl

/-! ## Concrete runs -/

/-- A device whose socket 0 is open, with the given protocol and status; three bytes have arrived, which are at address 100. -/
def liveDevice (proto status : U8) : Device Chip Unit :=
  { demoDevice with
    bus := Chip.powerUp.setSock 0
      { Chip.powerUp.socks 0 with
        mem := fun a => if a = 0x00 then proto else if a = 0x29 then 100 else (Chip.powerUp.socks 0).mem a
        sr := status
        rxRd := 100
        rxWr := 103
        ir := 4
        rxMem := fun i => if i = 100 then 7 else if i = 101 then 8 else if i = 102 then 9 else 0
        arrived := [7, 8, 9] } }

/-- The chip is reset before the given transactions. -/
def lossyBus (is : List Nat) : Bus Chip Unit := resetting (fun j => is.contains j) (Chip.dev emitSched noFaults).bus

theorem emit_keeps_status : StatusIn emitSched 0 (· = 0) := fun k x h => by simp [emitSched] at h

/-- C106 is false of UDP `send`: the chip is reset after the SEND command, before anything left. `send` finds the pointers equal and
returns `Ok`, though nothing was transmitted. Without the reset the datagram leaves. -/
theorem C106_refuted_send :
    ∃ (lose : Nat → Bool) (d : Device Chip Unit) (u : UdpSocket) (data : List U8),
      let r := Device.udpSend (resetting lose (Chip.dev emitSched noFaults).bus) 9 u data d
      let q := Device.udpSend (Chip.dev emitSched noFaults).bus 9 u data d
      WasReset lose d.bus r.2.bus ∧ r.1 = .ok () ∧ (r.2.bus.socks 0).packets = [] ∧
      q.1 = .ok () ∧ (q.2.bus.socks 0).packets.map (·.data) = [data] := by
  refine ⟨fun j => [7].contains j, liveDevice 2 0x22, ⟨Socket.new 0, some addrA, 5000⟩, [5], ⟨7, ?_⟩, ?_⟩ <;> decide +kernel

/-- C106 is false of TCP `receive`: the chip is reset after the number of received bytes was read. `receive` returns `Ok(3)` with
bytes that the peer did not send. -/
theorem C106_refuted_receive :
    ∃ (lose : Nat → Bool) (d : Device Chip Unit) (t : TcpSocket) (buf : List U8),
      let r := Device.tcpReceive (resetting lose (Chip.dev emitSched noFaults).bus) 9 t (buf, d)
      let q := Device.tcpReceive (Chip.dev emitSched noFaults).bus 9 t (buf, d)
      WasReset lose d.bus r.2.2.bus ∧ (d.bus.socks 0).arrived = [7, 8, 9] ∧ r.1 = .ok 3 ∧ r.2.1 = [0, 0, 0] ∧
      q.1 = .ok 3 ∧ q.2.1 = [7, 8, 9] := by
  refine ⟨fun j => [4].contains j, liveDevice 1 0x17, demoSocket, [1, 1, 1], ⟨4, ?_⟩, ?_⟩ <;> decide +kernel

/-- `C106_partial` applies to these: what follows is told that the socket is not open, though the chip is reset once more. -/
example (us : List Use) :
    let r := (Use.udpSend (some addrA) 5000 [5]).run (lossyBus [7, 30]) 9 0 (liveDevice 2 0x22)
    ∀ a ∈ (uses (lossyBus [7, 30]) 9 0 us r.2).1, a = .notOpen :=
  (C106_partial (n := 0) (sched := emitSched) (faults := noFaults) (by decide) emit_keeps_status _ 9 (.udpSend (some addrA) 5000 [5]) us
    (liveDevice 2 0x22) ⟨7, by decide +kernel⟩).2.2.1 fun _ => rfl
example : WasReset (fun j => [7, 30].contains j) (liveDevice 2 0x22).bus
      ((Use.udpSend (some addrA) 5000 [5]).run (lossyBus [7, 30]) 9 0 (liveDevice 2 0x22)).2.bus ∧
    ((liveDevice 2 0x22).bus.socks 0).sr = 0x22 := ⟨⟨7, by decide +kernel⟩, by decide +kernel⟩

/-- `C106_refuted_hang` applies: without the reset, `send` returns. -/
example (fuel : Nat) : (Device.tcpSend (lossyBus [1]) fuel demoSocket [5] (liveDevice 1 0x17)).1 = .fuel :=
  C106_refuted_hang (n := 0) (sched := emitSched) (faults := noFaults) (by decide) (fun _ => rfl) _ fuel [5] (liveDevice 1 0x17) _
    (by decide +kernel) (by decide +kernel) (by
      refine Prod.ext (by decide +kernel) (Prod.ext ?_ rfl)
      decide +kernel)
example : (Device.tcpSend (lossyBus []) 9 demoSocket [5] (liveDevice 1 0x17)).1 = .ok 1 := by decide +kernel

end W5500.Props
