import Verif.Spec.Reset
import Verif.Props.Lost
import Verif.Proofs.Cost
/-! # Calls on a chip that is reset while they run

The calls on an open socket write no mode and give no OPEN command. So a socket that was closed by a reset stays closed. -/

namespace W5500.Spec
open W5500 W5500.Props
variable {W E H : Type}

/-- The write frames of sending and receiving. -/
inductive UseFrames (s : Socket) : U8 → U16 → List U8 → Prop where
  | tx (a : U16) (d : List U8) : UseFrames s s.txBuffer a d
  | wr (x y : U8) : UseFrames s s.register 0x24 [x, y]
  | rd (x y : U8) : UseFrames s s.register 0x28 [x, y]
  | ir (x : U8) : UseFrames s s.register 0x02 [x]
  | send : UseFrames s s.register 0x01 [0x20]
  | recv : UseFrames s s.register 0x01 [0x40]
  | ip (x y z w : U8) : UseFrames s s.register 0x0C [x, y, z, w]
  | port (x y : U8) : UseFrames s s.register 0x10 [x, y]

theorem UseFrames.ofSend (s : Socket) (b : U8) (a : U16) (d : List U8) : SendFrames s b a d → UseFrames s b a d
  | .tx a d => .tx a d
  | .wr x y => .wr x y
  | .ir x _ => .ir x
  | .send => .send

section moves
variable {B : Bus W E}

theorem usesFrames_tcpSend (t : TcpSocket) (fuel : Nat) (data : List U8) :
    MovesOn B (UseFrames t.socket) id (t.socketSend B fuel data) := by
  have h1 := moves_waitSendOk (B := B) (UseFrames t.socket) t.socket fuel
  have h2 := moves_isConnected (B := B) (UseFrames t.socket) t
  unfold TcpSocket.socketSend Socket.getTxFreeSize Socket.getTxWritePointer Socket.setTxWritePointer Socket.command
    Socket.resetInterrupt
  moves
  all_goals first | exact .write (.tx _ _) | exact .write (.wr _ _) | exact .write .send | exact .write (.ir _)

theorem usesFrames_tcpReceive (t : TcpSocket) (fuel : Nat) :
    MovesOn B (UseFrames t.socket) (fun s => s.2) (t.socketReceive B fuel) := by
  have h1 := moves_receiveSize (B := B) (UseFrames t.socket) t.socket fuel
  have h2 := moves_isConnected (B := B) (UseFrames t.socket) t
  unfold TcpSocket.socketReceive Socket.hasInterrupt Socket.getRxReadPointer Socket.setRxReadPointer Socket.command
    Socket.resetInterrupt
  moves
  all_goals first | exact .write (.rd _ _) | exact .write .recv | exact .write (.ir _)

theorem usesFrames_udpReceive (u : UdpSocket) (fuel : Nat) :
    MovesOn B (UseFrames u.socket) (fun s => s.2) (u.socketReceive B fuel) := by
  have h1 := moves_checkStatus (B := B) (UseFrames u.socket) u
  have h2 := moves_receiveSize (B := B) (UseFrames u.socket) u.socket fuel
  unfold UdpSocket.socketReceive Socket.hasInterrupt Socket.getRxReadPointer Socket.setRxReadPointer Socket.command
    Socket.resetInterrupt
  moves
  · exact MovesOn.write (.rd _ _)
  · exact MovesOn.write .recv
  · exact MovesOn.write (.ir _)

theorem usesFrames_udpSend (u : UdpSocket) (fuel : Nat) (data : List U8) :
    MovesOn B (UseFrames u.socket) id (u.socketSendAll B fuel data) :=
  ⟨fun w => ((moves_sendAll u fuel data).run w).mono (UseFrames.ofSend _)⟩

theorem usesFrames_dest (u : UdpSocket) (remote : SockAddr4) :
    MovesOn B (UseFrames u.socket) id (writeAll B (destScript u remote)) := by
  unfold destScript
  split
  · exact .pure _
  · exact .bind (.write (.ip _ _ _ _)) fun _ => .bind (.write (.port _ _)) fun _ => .pure _

/-- A call moves the bus by these frames. -/
theorem usesFrames_run (fuel n : Nat) (u : Use) (d : Device W H) :
    Reach B (UseFrames (sockOf n)) d.bus (u.run B fuel n d).2.bus := by
  cases u with
  | tcpSend data => exact (MovesOn.onBus (usesFrames_tcpSend ⟨sockOf n⟩ fuel data)).run d
  | tcpReceive buf =>
    exact (MovesOn.onSockBus (usesFrames_tcpReceive ⟨sockOf n⟩ fuel)).run (buf, d)
  | udpSend dest port data => exact (MovesOn.onBus (usesFrames_udpSend ⟨sockOf n, dest, port⟩ fuel data)).run d
  | udpReceive dest port buf =>
    have h : MovesOn B (UseFrames (sockOf n)) (fun s => s.2.bus)
        (Device.udpReceive B fuel ⟨sockOf n, dest, port⟩ : M (List U8 × Device W H) (NbError (UdpSocketError E)) (Nat × SockAddr)) :=
      .onSockBus (.bind (usesFrames_udpReceive ⟨sockOf n, dest, port⟩ fuel) fun _ => .pure _)
    exact h.run (buf, d)
  | udpSendTo dest port remote data =>
    have h := (usesFrames_dest (B := B) ⟨sockOf n, dest, port⟩ remote).run d.bus
    dsimp only [Use.run]
    show Reach B (UseFrames (sockOf n)) d.bus (Device.udpSendTo B fuel (.v4 remote) data (⟨sockOf n, dest, port⟩, d)).2.2.bus
    unfold Device.udpSendTo Device.onSockBus M.zoom UdpSocket.socketSendTo
    dsimp only
    rw [M.bind_def, M.mapErr_def, setDestination_eq]
    dsimp only
    rw [M.mapErr_def]
    generalize writeAll B (destScript ⟨sockOf n, dest, port⟩ remote) d.bus = r at h
    obtain ⟨_ | _ | _ | _, w⟩ := r
    · have h2 := (usesFrames_udpSend (B := B) ⟨sockOf n, some remote, port⟩ fuel data).run w
      exact h.trans h2
    · exact h
    · exact h
    · exact h

end moves

variable {sched : Nat → List (Nat × Act)} {faults : Nat → Option (E × Nat)}

theorem Chip.readFrame_txn (c : Chip) (b : U8) (a : U16) (d : List U8) :
    ((Chip.dev sched faults).bus.readFrame c b a d).2.2.txn = c.txn + 1 := by
  simp only [ByteDev.bus]
  split
  · rename_i c1 hc
    have : c1 = { c with txn := c.txn + 1 } := by simp only [Chip.dev, Prod.mk.injEq] at hc; exact hc.2.symm
    subst this
    exact Chip.readBytes_txn _ _ _ _
  · rename_i e k c1 hc
    have : c1 = { c with txn := c.txn + 1 } := by simp only [Chip.dev, Prod.mk.injEq] at hc; exact hc.2.symm
    subst this
    exact Chip.readBytes_txn _ _ _ _

theorem Chip.writeFrame_txn (c : Chip) (b : U8) (a : U16) (d : List U8) :
    ((Chip.dev sched faults).bus.writeFrame c b a d).2.txn = c.txn + 1 := by
  simp only [ByteDev.bus]
  split
  · rename_i c1 hc
    have : c1 = { c with txn := c.txn + 1 } := by simp only [Chip.dev, Prod.mk.injEq] at hc; exact hc.2.symm
    subst this
    exact Chip.writeBytes_txn _ _ _ _
  · rename_i e k c1 hc
    have : c1 = { c with txn := c.txn + 1 } := by simp only [Chip.dev, Prod.mk.injEq] at hc; exact hc.2.symm
    subst this
    exact Chip.writeBytes_txn _ _ _ _

/-- A closed socket remains closed, and its history what it is. -/
theorem gone_frame {n : Nat} (hn : n < 8) (hq : StatusIn sched n (· = 0)) {S : List U8} {P : List Packet} {A : List U8} {b : U8}
    {a : U16} {d : List U8} (hf : UseFrames (sockOf n) b a d) (c : Chip) (hc : At n (Gone S P A) c) :
    At n (Gone S P A) ((Chip.dev sched faults).bus.writeFrame c b a d).2 := by
  have done : ∀ {b : U8} {a : U16} {d : List U8},
      Hoare (At n (Gone S P A)) ((Chip.dev sched faults).bus.write b a d) (fun _ => At n (Gone S P A)) (At n (Gone S P A)) →
      At n (Gone S P A) ((Chip.dev sched faults).bus.writeFrame c b a d).2 := by
    intro b a d h
    have := h.run c hc
    unfold Bus.write at this
    generalize (Chip.dev sched faults).bus.writeFrame c b a d = r at this
    obtain ⟨_ | _ | _ | _, c'⟩ := r <;> exact this
  have one : ∀ (a : U16) (x : U8), (∀ s, Gone S P A s → Gone S P A (s.pokeReg a x)) →
      At n (Gone S P A) ((Chip.dev sched faults).bus.writeFrame c (sockOf n).register a [x]).2 := by
    intro a x h
    refine done ((gone_stays hq S P A).writeReg hn a [x] fun i hi s hs => ?_)
    have : i = 0 := by simp at hi; omega
    subst this
    rw [show a + BitVec.ofNat 16 0 = a from BitVec.add_zero _]
    exact h s hs
  cases hf with
  | tx a d => exact done ((gone_stays hq S P A).writeTx hn a d fun s a x h => ⟨h.1, h.2.1, h.2.2, h.2.3, h.2.4⟩)
  | wr x y => exact done (gone_write hn hq _ _ (show ∀ i, i < 2 → _ by decide))
  | rd x y => exact done (gone_write hn hq _ _ (show ∀ i, i < 2 → _ by decide))
  | ip x y z w => exact done (gone_write hn hq _ _ (show ∀ i, i < 4 → _ by decide))
  | port x y => exact done (gone_write hn hq _ _ (show ∀ i, i < 2 → _ by decide))
  | ir x => exact one _ _ fun s h => ⟨h.1, h.2.1, h.2.2, h.2.3, h.2.4⟩
  | send => exact one _ _ fun s h => ⟨h.1, h.2.1, h.2.2, h.2.3, h.2.4⟩
  | recv => exact one _ _ fun s h => ⟨h.1, h.2.1, h.2.2, h.2.3, h.2.4⟩

theorem gone_cycle {n : Nat} (S : List U8) (P : List Packet) (A : List U8) {c : Chip} (h : At n (Gone S P A) c) :
    At n (Gone S P A) c.powerCycle := ⟨rfl, rfl, h.2.2, h.2.3, h.2.4⟩

theorem gone_lose {n : Nat} {S : List U8} {P : List Packet} {A : List U8} {c : Chip} (b : Bool) (h : At n (Gone S P A) c) :
    At n (Gone S P A) (if b then c.powerCycle else c) := by
  cases b
  · exact h
  · exact gone_cycle S P A h

/-- A call after which the chip has been reset leaves the socket closed. -/
theorem gone_reset {n : Nat} (hn : n < 8) (hq : StatusIn sched n (· = 0)) {lose : Nat → Bool} {c c' : Chip}
    (h : Reach (resetting lose (Chip.dev sched faults).bus) (UseFrames (sockOf n)) c c') (hr : WasReset lose c c') :
    ∃ S P A, At n (Gone S P A) c' := by
  revert hr
  have rst : ∀ c : Chip, At n (Gone (c.socks n).stream (c.socks n).packets (c.socks n).arrived) c.powerCycle :=
    fun c => ⟨rfl, rfl, rfl, rfl, rfl⟩
  have split : ∀ w w' : Chip, w'.txn = w.txn + 1 → WasReset lose c w' → WasReset lose c w ∨ lose w.txn = true := by
    rintro w w' h ⟨i, h1, h2, h3⟩
    by_cases hi : i < w.txn
    · exact .inl ⟨i, h1, hi, h3⟩
    · exact .inr (by rwa [show w.txn = i by omega])
  have keeps : ∀ w w' : Chip, w'.txn = w.txn + 1 → (WasReset lose c w → ∃ S P A, At n (Gone S P A) w) →
      WasReset lose c w' → ∃ S P A, At n (Gone S P A) (if lose w.txn then w.powerCycle else w) := by
    intro w w' h ih hr
    rcases split w w' h hr with h | h
    · obtain ⟨S, P, A, h⟩ := ih h
      exact ⟨S, P, A, gone_lose _ h⟩
    · rw [h]
      exact ⟨_, _, _, rst w⟩
  have txn : ∀ w : Chip, (if lose w.txn then w.powerCycle else w).txn = w.txn := by
    intro w; split <;> rfl
  induction h with
  | refl => rintro ⟨i, h1, h2, _⟩; omega
  | @read w b a d _ ih =>
    intro hr
    obtain ⟨S, P, A, h⟩ := keeps _ _ ((Chip.readFrame_txn _ _ _ _).trans (by rw [txn])) ih hr
    exact ⟨S, P, A, (gone_stays hq S P A).ticks.readFrame _ _ _ _ h⟩
  | @write w b a d _ hf ih =>
    intro hr
    obtain ⟨S, P, A, h⟩ := keeps _ _ ((Chip.writeFrame_txn _ _ _ _).trans (by rw [txn])) ih hr
    exact ⟨S, P, A, gone_frame hn hq hf _ h⟩

/-- Calls on a closed socket of a chip that may be reset further. -/
theorem gone_reach {n : Nat} (hn : n < 8) (hq : StatusIn sched n (· = 0)) {lose : Nat → Bool} {S : List U8} {P : List Packet}
    {A : List U8} {c c' : Chip} (h : Reach (resetting lose (Chip.dev sched faults).bus) (UseFrames (sockOf n)) c c')
    (hc : At n (Gone S P A) c) : At n (Gone S P A) c' :=
  h.induct (fun _ _ _ _ hw => (gone_stays hq S P A).ticks.readFrame _ _ _ _ (gone_lose _ hw))
    (fun _ _ _ _ hf hw => gone_frame hn hq hf _ (gone_lose _ hw)) hc

end W5500.Spec
