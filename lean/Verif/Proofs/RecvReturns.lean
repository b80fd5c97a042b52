import Verif.Proofs.SendReturns
import Verif.Proofs.RawHistory
/-! # Receiving and connecting return -/

namespace W5500
open socketn Spec
variable {σ τ S ε ε' α β : Type} {W E : Type} {B : Bus W E}

namespace NoFuel

theorem zoom {m : M τ ε α} (get : σ → τ) (put : τ → σ → σ) (h : NoFuel m) : NoFuel (M.zoom get put m) :=
  ⟨fun s => h.run (get s)⟩

theorem onSnd {m : M τ ε α} (h : NoFuel m) : NoFuel (M.onSnd (σ := S) m) := .zoom _ _ h

theorem get : NoFuel (M.get : M σ ε σ) := ⟨fun _ => nofun⟩

theorem withPrefix {m : M (List U8 × σ) ε α} (n : Nat) (h : NoFuel m) : NoFuel (M.withPrefix n m) := by
  constructor
  intro s
  unfold M.withPrefix
  split
  · exact h.run _
  · nofun

theorem withLocal {m : M (β × σ) ε α} (b : β) (h : NoFuel m) : NoFuel (M.withLocal b m) := by
  constructor
  intro s
  have := h.run (b, s)
  unfold M.withLocal
  generalize m (b, s) = r at *
  obtain ⟨_ | _ | _ | _, t⟩ := r
  · nofun
  · nofun
  · nofun
  · exact absurd rfl this

theorem readSlice (hB : Returning B) (b : U8) (a : U16) : NoFuel (B.readSlice b a) := ⟨fun s => hB.1 s.2 b a s.1⟩

end NoFuel

open Lean.Parser.Tactic in
macro "nofuel" : tactic => `(tactic| repeat' (with_reducible first
  | assumption
  | exact NoFuel.pure _
  | exact NoFuel.throw _
  | exact NoFuel.panic
  | exact NoFuel.get
  | exact NoFuel.sliceTo _ _
  | (apply NoFuel.write; assumption)
  | (apply NoFuel.read1; assumption)
  | (apply NoFuel.read2; assumption)
  | (apply NoFuel.readBuf; assumption)
  | (apply NoFuel.readSlice; assumption)
  | apply NoFuel.bind
  | apply NoFuel.mapErr
  | apply NoFuel.onSnd
  | apply NoFuel.withPrefix
  | apply NoFuel.withLocal
  | apply NoFuel.ite
  | intro _
  | split))

/-- A step of a pair state. -/
theorem Total.zoom {m : Nat → M τ ε α} {P : τ → Prop} (get : σ → τ) (put : τ → σ → σ) (h : Total P m) :
    Total (fun s => P (get s)) (fun k => M.zoom get put (m k)) := ⟨fun s hs => h.run (get s) hs⟩

theorem Total.onSnd {m : Nat → M τ ε α} {P : τ → Prop} (h : Total P m) :
    Total (fun s : S × τ => P s.2) (fun k => M.onSnd (m k)) := h.zoom _ _

theorem Hoare.onSnd2 {P : σ → Prop} {m : M σ ε α} {Q : α → σ → Prop} {R : σ → Prop} (h : Hoare P m Q R) :
    Hoare (fun s : S × σ => P s.2) (M.onSnd m) (fun a s => Q a s.2) (fun s => R s.2) :=
  .onSnd fun _ => h

end W5500

namespace W5500.Spec
open W5500 socketn Sock
variable {E ε α : Type} {sched : Nat → List (Nat × Act)} {faults : Nat → Option (E × Nat)}

/-- The RX buffer has a size that is legal, and smaller than the number of rounds. -/
def Roomy (f : Nat) (s : Sock) : Prop := s.rxSize < 65536 ∧ s.rxSize < f

theorem stable_roomy (f : Nat) : StableS (Roomy f) := fun s a h => by
  unfold Roomy
  rw [act_rxSize]
  exact h

theorem receiveSize_total {n : Nat} (hn : n < 8) (f : Nat) :
    Total (At n (Roomy f)) (fun _ => (sockOf n).getReceiveSize (Chip.dev sched faults).bus f) :=
  ⟨fun c hc => ⟨0, receiveSize_returns hn f c hc.1 (Nat.lt_of_le_of_lt (Nat.sub_le _ _) hc.2)⟩⟩

theorem tcpReceive_total {n : Nat} (hn : n < 8) (f : Nat) :
    Total (fun s : List U8 × Chip => At n (Roomy f) s.2)
      (fun _ => TcpSocket.socketReceive (Chip.dev sched faults).bus f ⟨sockOf n⟩) := by
  have hB := bus_returns (Chip.dev sched faults)
  have hP := stable_roomy f
  have r1 : ∀ a, Hoare (At n (Roomy f)) (M.mapErr (TcpSocketError.other (E := E)) ((Chip.dev sched faults).bus.read1 (sockOf n).register a))
      (fun _ => At n (Roomy f)) (At n (Roomy f)) := fun a => .mapErr (hs_read1' hn hP a)
  unfold TcpSocket.socketReceive TcpSocket.socketIsConnected Socket.hasInterrupt
  refine .step (Q := fun _ s => At n (Roomy f) s.2) (R := fun s => At n (Roomy f) s.2) (.onSnd (by unfold Socket.getStatus; nofuel))
    (.onSnd2 (Q := fun _ => At n (Roomy f)) (.bind (r1 _) fun _ => .pure fun _ h => h)) fun b => ?_
  refine .ite (fun _ => .of (.throw _)) fun _ => ?_
  refine .step (Q := fun _ s => At n (Roomy f) s.2) (R := fun s => At n (Roomy f) s.2) (.onSnd (by nofuel))
    (.onSnd2 (Q := fun _ => At n (Roomy f)) (.mapErr (.bind (hs_read1' hn hP _) fun _ => .pure fun _ h => h))) fun b => ?_
  refine .ite (fun _ => .of (.pure _)) fun _ => ?_
  refine .andThen (.onSnd (.mapErr (receiveSize_total hn f))) fun v => ?_
  unfold Socket.getRxReadPointer Socket.setRxReadPointer Socket.command Socket.resetInterrupt
  nofuel

theorem udpReceive_total {n : Nat} (hn : n < 8) (u : UdpSocket) (hu : u.socket = sockOf n) (f : Nat) :
    Total (fun s : List U8 × Chip => At n (Roomy f) s.2)
      (fun _ => UdpSocket.socketReceive (Chip.dev sched faults).bus f u) := by
  have hB := bus_returns (Chip.dev sched faults)
  have hP := stable_roomy f
  unfold UdpSocket.socketReceive Socket.hasInterrupt
  refine .step (.onSnd (by unfold UdpSocket.checkStatus Socket.getStatus; nofuel)) (.onSnd2 (hs_checkStatus hn hP u hu)) fun _ => ?_
  rw [hu]
  refine .step (Q := fun _ s => At n (Roomy f) s.2) (R := fun s => At n (Roomy f) s.2) (.onSnd (by nofuel))
    (.onSnd2 (Q := fun _ => At n (Roomy f)) (.mapErr (.bind (hs_read1' hn hP _) fun _ => .pure fun _ h => h))) fun b => ?_
  refine .ite (fun _ => .of (.throw _)) fun _ => ?_
  refine .andThen (.onSnd (.mapErr (receiveSize_total hn f))) fun v => ?_
  unfold Socket.getRxReadPointer Socket.setRxReadPointer Socket.command Socket.resetInterrupt
  nofuel

theorem rawRead_total {n : Nat} (hn : n < 8) (r : RawDevice) (hr : r.rawSocket = sockOf n) (f : Nat) :
    Total (fun s : List U8 × Chip => At n (Roomy f) s.2) (fun _ => r.readFrame (Chip.dev sched faults).bus f) := by
  have hB := bus_returns (Chip.dev sched faults)
  unfold RawDevice.readFrame RxCursor.new
  rw [hr]
  refine .andThen (.onSnd (.andThen (receiveSize_total hn f) fun _ => ?_)) fun c => ?_
  · unfold Socket.getRxReadPointer
    nofuel
  · unfold RxCursor.readUpto RxCursor.read RxCursor.commit Socket.setRxReadPointer Socket.command
    nofuel

/-! ## Connecting -/

/-- A status that ends `connect`: ESTABLISHED or CLOSED. -/
theorem connect_ends {x : U8} (h : x = 0x17 ∨ x = 0x00) : Status.tryFrom x = some .established ∨ Status.tryFrom x = some .closed := by
  rcases h with rfl | rfl
  · exact .inl rfl
  · exact .inr rfl

theorem act_sr (s : Sock) (a : Act) (h : ∀ y, a ≠ .status y) : (s.act a).sr = s.sr := by
  cases a with
  | status y => exact absurd rfl (h y)
  | _ => simp only [act, Sock.push]; repeat' split
         all_goals rfl

theorem connectLoop_returns {n l : Nat} (hn : n < 8) {x : U8} (hx : x = 0x17 ∨ x = 0x00) (hl : (n, .status x) ∈ sched l)
    (ho : ∀ y, (n, .status y) ∈ sched l → y = 0x17 ∨ y = 0x00) (fuel : Nat) (c : Chip) (hc : c.clock ≤ l)
    (hf : l - c.clock < fuel) : (TcpSocket.connectLoop (Chip.dev sched faults).bus ⟨sockOf n⟩ fuel c).1 ≠ .fuel := by
  have hB := bus_returns (Chip.dev sched faults)
  induction fuel generalizing c with
  | zero => omega
  | succ f ih =>
    intro g0
    unfold TcpSocket.connectLoop Socket.getStatus at g0
    rcases bind_eq_fuel g0 with h | ⟨y, c1, h1, g1, _⟩
    · exact (NoFuel.mapErr _ (.read1 hB _ _)).run c h
    rw [M.mapErr_eq_ok] at h1
    have t1 := (Chip.read1_clock (sched := sched) (faults := faults) _ _ c.clock).ok rfl h1
    have v1 := (Chip.read1_value (sched := sched) (faults := faults) hn _).ok trivial h1
    have hT : Chip.Ticks sched (fun d => d.clock = l + 1 → (d.socks n).sr = 0x17 ∨ (d.socks n).sr = 0x00) := by
      refine ⟨fun d _ hd => ?_, fun d k h => h⟩
      rw [Chip.tick_clock] at hd
      have hd : d.clock = l := by omega
      have := (Chip.foldl_event (n := n) (P := fun _ => True) (D := fun s => s.sr = 0x17 ∨ s.sr = 0x00) (a := .status x)
        (sched d.clock) (fun _ _ _ _ => trivial) (fun s b hb _ h => ?_) (fun s _ => hx) d trivial).2 (.inr (by rw [hd]; exact hl))
      · exact this
      · by_cases hs : ∃ y, b = .status y
        · obtain ⟨y, rfl⟩ := hs
          rw [hd] at hb
          exact ho y hb
        · rw [act_sr s b fun y e => hs ⟨y, e⟩]
          exact h
    have i1 := (hT.read1 (faults := faults) _ _).ok (fun h => by omega) h1
    by_cases hend : c.clock = l
    · have hy : y = 0x17 ∨ y = 0x00 := by
        have : y = (c1.socks n).sr := v1
        rw [this]
        exact i1 (by omega)
      revert g1
      rcases connect_ends hy with e | e <;> rw [e]
      · nofun
      · intro g1
        refine NoFuel.run (m := TcpSocket.socketClose (Chip.dev sched faults).bus ⟨sockOf n⟩ >>= fun _ =>
          TcpSocket.reopen (Chip.dev sched faults).bus ⟨sockOf n⟩) ?_ c1 g1
        unfold TcpSocket.socketClose TcpSocket.reopen Socket.command Socket.resetInterrupt Socket.setMode Socket.setInterruptMask
        nofuel
    · have hrec := ih c1 (by omega) (by omega)
      have hclose : ((TcpSocket.socketClose (Chip.dev sched faults).bus ⟨sockOf n⟩ >>= fun _ =>
          TcpSocket.reopen (Chip.dev sched faults).bus ⟨sockOf n⟩ : M Chip (TcpSocketError E) Unit) c1).1 ≠ .fuel := by
        refine NoFuel.run ?_ c1
        unfold TcpSocket.socketClose TcpSocket.reopen Socket.command Socket.resetInterrupt Socket.setMode Socket.setInterruptMask
        nofuel
      revert g1
      generalize Status.tryFrom y = st
      rcases st with _ | st
      · exact hrec
      · cases st <;> first | exact hrec | exact hclose | nofun

/-- `connect` returns if its waiting does. -/
theorem connect_total' {n : Nat} (w : Nat → Nat)
    (loop : Total (fun _ : Chip => True) (fun fuel => TcpSocket.connectLoop (Chip.dev sched faults).bus ⟨sockOf n⟩ (w fuel)))
    (port : U16) (remote : SockAddr4) :
    Total (fun _ : Chip => True) (fun fuel => (do
      TcpSocket.open (Chip.dev sched faults).bus ⟨sockOf n⟩ port
      TcpSocket.socketConnect (Chip.dev sched faults).bus (w fuel) ⟨sockOf n⟩ remote : M Chip (TcpSocketError E) Unit)) := by
  have hB := bus_returns (Chip.dev sched faults)
  have any : ∀ {β : Type} {m : M Chip (TcpSocketError E) β}, Hoare (fun _ : Chip => True) m (fun _ _ => True) (fun _ => True) :=
    .triv
  refine .step ?_ any fun _ => ?_
  · unfold TcpSocket.open Socket.command Socket.resetInterrupt Socket.setSourcePort Socket.setMode Socket.setInterruptMask
    nofuel
  unfold TcpSocket.socketConnect
  refine .step (by unfold Socket.getStatus; nofuel) any fun st => ?_
  have rest : Total (fun _ : Chip => True) (fun fuel => (do
      M.mapErr .other ((sockOf n).setDestinationIp (Chip.dev sched faults).bus remote.ip)
      M.mapErr .other ((sockOf n).setDestinationPort (Chip.dev sched faults).bus remote.port)
      M.mapErr .other ((sockOf n).command (Chip.dev sched faults).bus .connect)
      TcpSocket.connectLoop (Chip.dev sched faults).bus ⟨sockOf n⟩ (w fuel) : M Chip (TcpSocketError E) Unit)) := by
    refine .step ?_ any fun _ => .step ?_ any fun _ => .step ?_ any fun _ => loop
    · unfold Socket.setDestinationIp; nofuel
    · unfold Socket.setDestinationPort; nofuel
    · unfold Socket.command; nofuel
  dsimp only
  split
  · exact rest
  · exact .of (.throw _)
  · exact .of (.throw _)
  · exact .of (.throw _)
  · refine .step ?_ any fun _ => .step ?_ any fun _ => rest
    · unfold TcpSocket.socketClose Socket.command Socket.setMode; nofuel
    · unfold TcpSocket.reopen Socket.command Socket.resetInterrupt Socket.setMode Socket.setInterruptMask; nofuel

theorem connect_total {n : Nat} (hn : n < 8) (ha : Answering sched n) (port : U16) (remote : SockAddr4) :
    Total (fun _ : Chip => True) (fun fuel => (do
      TcpSocket.open (Chip.dev sched faults).bus ⟨sockOf n⟩ port
      TcpSocket.socketConnect (Chip.dev sched faults).bus fuel ⟨sockOf n⟩ remote : M Chip (TcpSocketError E) Unit)) := by
  refine connect_total' (fun k => k) ⟨fun c _ => ?_⟩ port remote
  obtain ⟨l, h1, ⟨x, h2, h3⟩, h4⟩ := ha c.clock
  exact ⟨_, connectLoop_returns hn h2 h3 h4 _ c h1 (Nat.lt_succ_self _)⟩

theorem sendTo_total {n : Nat} (hn : n < 8) (he : Emitting sched n) (K : List Packet) (A : List U8) (z : Nat)
    (qs : List Dgram) (u : UdpSocket) (hu : u.socket = sockOf n) (a : SockAddr4) (buf : List U8) :
    Total (fun s : UdpSocket × Chip => s.1 = u ∧ At n (UdpIdle K A z qs) s.2 ∧ Coherent n u s.2)
      (fun fuel => UdpSocket.socketSendTo (Chip.dev sched faults).bus fuel a buf) := by
  have hB := bus_returns (Chip.dev sched faults)
  unfold UdpSocket.socketSendTo
  refine .step (Q := fun _ s => s.1 = { u with destination := some a } ∧ At n (UdpIdle K A z qs) s.2)
    (R := fun _ => True) (.mapErr _ ?_) ?_ fun _ => ?_
  · unfold UdpSocket.setDestination Socket.setDestinationIp Socket.setDestinationPort
    nofuel
    exact ⟨nofun⟩
  · have := udp_setDestination (sched := sched) (faults := faults) hn (stable_udpIdle K A z qs)
      (fun s b x h1 h2 h3 h => h.setMem b x (dest_indifferent h1 h2 h3)) u hu a
    exact .mapErr (this.conseq (fun _ h => h) (fun _ s h => ⟨h.1, h.2.1⟩) fun _ _ => trivial)
  · constructor
    rintro ⟨u', c⟩ ⟨h1, h2⟩
    dsimp only at h1
    subst h1
    obtain ⟨k, hk⟩ := (sendAll_total (sched := sched) (faults := faults) hn he _ K A { u with destination := some a } hu buf).run c h2.idle
    exact ⟨k, hk⟩

end W5500.Spec
