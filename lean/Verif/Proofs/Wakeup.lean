import Verif.Spec.Wakeup
import Verif.Proofs.Success
import Verif.Proofs.UdpHistory
import Verif.Proofs.ChipTcp
/-! # The RECV interrupt after a receive call -/

namespace W5500.Spec
open W5500 socketn Sock
variable {E ε α : Type} {sched : Nat → List (Nat × Act)} {faults : Nat → Option (E × Nat)}

theorem _root_.W5500.Hoare.nothing {σ : Type} {P : σ → Prop} {m : M σ ε α} : Hoare P m (fun _ _ => True) (fun _ => True) :=
  ⟨fun s _ => by generalize m s = r; obtain ⟨_ | _ | _ | _, _⟩ := r <;> exact trivial⟩

/-- Not announced. -/
def Unannounced (s : Sock) : Prop := s.ir.getLsbD 2 = false

theorem unannounced_iff {s : Sock} : ¬ s.Announced ↔ Unannounced s := by
  unfold Announced Unannounced
  rw [Bool.not_eq_true]

/-- Writing RECV to Sn_IR clears it. -/
theorem hs_clearRecv {n : Nat} (hn : n < 8) :
    Hoare (fun _ => True) ((Chip.dev sched faults).bus.write (sockOf n).register 0x02 [0x04])
      (fun _ => At n Unannounced) (fun _ => True) := by
  refine (hs_write1 (Q := Unannounced) hn StableS.true 0x02 0x04 fun s _ => ?_).conseq (fun _ h => h) (fun _ _ h => h)
    fun _ _ => trivial
  show (s.ir &&& ~~~(4 : U8)).getLsbD 2 = false
  rw [BitVec.getLsbD_and]
  exact Bool.and_false _

theorem recv_bit {x : U8} (h : decide (x &&& Interrupt.toU8 .receive ≠ 0) = false) : x.getLsbD 2 = false := by
  revert h
  show decide (x &&& 4 ≠ 0) = false → _
  revert x
  decide +kernel

theorem recv_bit' {x : U8} (h : decide (x &&& Interrupt.toU8 .receive ≠ 0) = true) : x.getLsbD 2 = true := by
  revert h
  show decide (x &&& 4 ≠ 0) = true → _
  revert x
  decide +kernel

/-- After a UDP receive that returned `Ok`, RECV is clear. -/
theorem udp_receive_clears {n : Nat} (hn : n < 8) (u : UdpSocket) (hu : u.socket = sockOf n) (fuel : Nat) :
    Hoare (fun _ => True) (u.socketReceive (Chip.dev sched faults).bus fuel) (fun _ s => At n Unannounced s.2)
      (fun _ => True) := by
  constructor
  rintro ⟨buf, c⟩ _
  rw [receive_split]
  refine Hoare.run (P := fun _ => True) ?_ (buf, c) trivial
  refine .bind .nothing fun x => ?_
  unfold recvTail
  rw [hu]
  refine .bind .nothing fun _ => .bind .nothing fun _ => .bind .nothing fun _ => .bind ?_ fun _ => .pure fun _ h => h
  exact .onSnd (fun b => (Hoare.mapErr (hs_clearRecv hn)).pre fun _ _ => trivial)

/-- After a TCP receive that returned `Ok`, RECV is clear. -/
theorem tcp_receive_clears {n : Nat} (hn : n < 8) (fuel : Nat) :
    Hoare (fun _ => True) (TcpSocket.socketReceive (Chip.dev sched faults).bus fuel ⟨sockOf n⟩)
      (fun _ s => At n Unannounced s.2) (fun _ => True) := by
  unfold TcpSocket.socketReceive Socket.hasInterrupt
  refine .bind .nothing fun b => ?_
  refine .ite (fun _ => .throw fun _ _ => trivial) fun _ => ?_
  refine .bind (Q := fun y (s : List U8 × Chip) => y = false → At n Unannounced s.2) ?_ fun y => ?_
  · refine .onSnd fun b => .mapErr (.bind (Q := fun x c => x = (c.socks n).ir) ?_ fun x => .pure fun c hx hy => ?_)
    · exact (Chip.read1_value hn 0x02).pre fun _ _ => trivial
    · subst hx
      exact recv_bit hy
  refine .ite (fun hy => .pure fun s h => h (by simpa using hy)) fun _ => ?_
  refine .bind .nothing fun v => ?_
  dsimp only
  refine .bind .nothing fun d => ?_
  refine .bind .nothing fun p => .bind .nothing fun _ => .bind .nothing fun _ => .bind .nothing fun _ => .bind ?_
    fun _ => .pure fun _ h => h
  exact .onSnd (fun b => (Hoare.mapErr (hs_clearRecv hn)).pre fun _ _ => trivial)

/-- Not announced, and `q` waits. -/
def Deaf (q : List U8) (s : Sock) : Prop := s.ir.getLsbD 2 = false ∧ s.queue = q

/-- As long as nothing arrives, RECV stays clear, and the same waits. -/
theorem deaf_ticks {n t : Nat} (q : List U8) (hq : NoNews sched n t) :
    Chip.Ticks sched (fun c => t ≤ c.clock ∧ At n (Deaf q) c) := by
  refine ⟨fun c hc => ⟨?_, ?_⟩, fun _ _ h => h⟩
  · rw [Chip.tick_clock]; exact Nat.le_succ_of_le hc.1
  · refine (Chip.foldl_event (P := Deaf q) (D := fun _ => True) (a := .emit true) (sched c.clock) (fun s a ha h => ?_)
      (fun _ _ _ _ _ => trivial) (fun _ _ => trivial) c hc.2).1
    obtain ⟨h1, h2, h3, h4⟩ := hq c.clock hc.1 a ha
    cases a with
    | arrive bs => exact absurd rfl (h1 bs)
    | datagram d => exact absurd rfl (h2 d)
    | frame f => exact absurd rfl (h3 f)
    | transmit k => simp only [act]; split <;> exact h
    | ack k => simp only [act]; split <;> exact h
    | emit b => simp only [act]; split <;> exact h
    | raise bits =>
      have h5 := h4 bits rfl
      refine ⟨?_, h.2⟩
      show (s.ir ||| (if s.proto = 1 then bits else bits &&& (s.owed ||| 0xE7))).getLsbD 2 = false
      have h : s.ir.getLsbD 2 = false := h.1
      rw [BitVec.getLsbD_or, h, Bool.false_or]
      split
      · exact h5
      · rw [BitVec.getLsbD_and, h5, Bool.false_and]
    | status x => exact h

/-- With RECV clear whatever happens meanwhile, a UDP receive does not return `Ok`. -/
theorem udp_receive_unheard {n : Nat} (hn : n < 8) {I : Chip → Prop} (hT : Chip.Ticks sched I)
    (hI : ∀ c, I c → (c.socks n).ir.getLsbD 2 = false) (u : UdpSocket) (hu : u.socket = sockOf n) (fuel : Nat) :
    Hoare (fun s : List U8 × Chip => I s.2) (u.socketReceive (Chip.dev sched faults).bus fuel)
      (fun _ _ => False) (fun s => I s.2) := by
  unfold UdpSocket.socketReceive UdpSocket.checkStatus Socket.getStatus Socket.hasInterrupt
  rw [hu]
  refine .bind (Q := fun _ (s : List U8 × Chip) => I s.2) ?_ fun _ => ?_
  · refine .onSnd fun b => .bind (.mapErr (hT.read1 _ _)) fun x => ?_
    split
    · exact .pure fun _ h => h
    · exact .throw fun _ h => h
    · exact .throw fun _ h => h
  refine .bind (Q := fun y (s : List U8 × Chip) => y = false ∧ I s.2) ?_ fun y => ?_
  · refine .onSnd fun b => .mapErr (.bind (Q := fun x c => I c ∧ x = (c.socks n).ir) ?_
      fun x => .pure fun c hx => ⟨?_, hx.1⟩)
    · exact .conseq ((hT.read1 _ _).and (Chip.read1_value hn 0x02)) (fun _ h => ⟨h, trivial⟩) (fun _ _ h => h) fun _ h => h.1
    · obtain ⟨h1, rfl⟩ := hx
      rw [← Bool.not_eq_true]
      intro e
      have := recv_bit' e
      rw [hI c h1] at this
      exact nomatch this
  refine .fact fun hy => ?_
  subst hy
  exact .throw fun _ h => h

/-- The same for a call on the device. -/
theorem udp_call_unheard {H : Type} {n : Nat} (hn : n < 8) {I : Chip → Prop} (hT : Chip.Ticks sched I)
    (hI : ∀ c, I c → (c.socks n).ir.getLsbD 2 = false) (u : UdpSocket) (hu : u.socket = sockOf n) (fuel : Nat)
    {buf buf' : List U8} {d d' : Device Chip H} {r : Res (NbError (UdpSocketError E)) (Nat × SockAddr)} (hd : I d.bus)
    (hr : Device.udpReceive (Chip.dev sched faults).bus fuel u (buf, d) = (r, (buf', d'))) : (∀ x, r ≠ .ok x) ∧ I d'.bus := by
  have h3 := (Hoare.bind (udp_receive_unheard (sched := sched) (faults := faults) hn hT hI u hu fuel)
    (f := fun x => pure (x.1, SockAddr.v4 x.2.origin)) (Q' := fun _ _ => False) fun x => .pure fun _ h => h).run (buf, d.bus) hd
  rw [onSockBus_run hr] at h3
  cases r with
  | ok _ => exact h3.elim
  | err _ => exact ⟨fun _ => nofun, h3⟩
  | panic => exact ⟨fun _ => nofun, h3⟩
  | fuel => exact ⟨fun _ => nofun, h3⟩

/-- The same for any number of calls. -/
theorem udp_polls_unheard {H : Type} {n : Nat} (hn : n < 8) {I : Chip → Prop} (hT : Chip.Ticks sched I)
    (hI : ∀ c, I c → (c.socks n).ir.getLsbD 2 = false) (u : UdpSocket) (hu : u.socket = sockOf n)
    (polls : List (Nat × List U8)) (d : Device Chip H) (hd : I d.bus) :
    let r := udpPolls (Chip.dev sched faults).bus u polls d
    (∀ x, .ok x ∉ r.1) ∧ I r.2.bus := by
  induction polls generalizing d with
  | nil => exact ⟨fun _ => nofun, hd⟩
  | cons p ps ih =>
    obtain ⟨fuel, buf⟩ := p
    rcases hr : Device.udpReceive (Chip.dev sched faults).bus fuel u (buf, d) with ⟨r, buf', d'⟩
    have h4 := udp_call_unheard hn hT hI u hu fuel hd hr
    unfold udpPolls
    rw [hr]
    have h5 := ih d' h4.2
    refine ⟨fun x hm => ?_, h5.2⟩
    rcases List.mem_cons.mp hm with hm | hm
    · exact h4.1 x hm.symm
    · exact h5.1 x hm

/-- As long as RECV is clear whatever happens meanwhile, a TCP receive can only return 0. -/
theorem tcp_receive_unheard {n : Nat} (hn : n < 8) {I : Chip → Prop} (hT : Chip.Ticks sched I)
    (hI : ∀ c, I c → (c.socks n).ir.getLsbD 2 = false) (fuel : Nat) (b0 : List U8) :
    Hoare (fun s : List U8 × Chip => s.1 = b0 ∧ I s.2)
      (TcpSocket.socketReceive (Chip.dev sched faults).bus fuel ⟨sockOf n⟩)
      (fun k s => k = 0 ∧ s.1 = b0 ∧ I s.2) (fun s => s.1 = b0 ∧ I s.2) := by
  unfold TcpSocket.socketReceive TcpSocket.socketIsConnected Socket.hasInterrupt Socket.getStatus
  refine .bind (.onSnd' b0 (P := I) (R := I) (Q := fun _ => I) ?_) fun y => ?_
  · exact .bind (.mapErr (hT.read1 _ _)) fun x => .pure fun _ h => h
  refine .ite (fun _ => .throw fun _ h => h) fun _ => ?_
  refine .bind (.onSnd' b0 (P := I) (R := I) (Q := fun y c => y = false ∧ I c) ?_) fun y => ?_
  · refine .mapErr (.bind (Q := fun x c => I c ∧ x = (c.socks n).ir) ?_ fun x => .pure fun c hx => ⟨?_, hx.1⟩)
    · exact .conseq ((hT.read1 _ _).and (Chip.read1_value hn 0x02)) (fun _ h => ⟨h, trivial⟩) (fun _ _ h => h) fun _ h => h.1
    · obtain ⟨h1, rfl⟩ := hx
      rw [← Bool.not_eq_true]
      intro e
      have := recv_bit' e
      rw [hI c h1] at this
      exact nomatch this
  refine .pre (P := fun s : List U8 × Chip => y = false ∧ s.1 = b0 ∧ I s.2)
    (.fact fun hy => ?_) fun s h => ⟨h.2.1, h.1, h.2.2⟩
  subst hy
  exact .pure fun _ h => ⟨rfl, h⟩

/-- The same for any number of calls. -/
theorem tcp_polls_unheard {H : Type} {n : Nat} (hn : n < 8) {I : Chip → Prop} (hT : Chip.Ticks sched I)
    (hI : ∀ c, I c → (c.socks n).ir.getLsbD 2 = false) (polls : List (Nat × List U8)) (d : Device Chip H) (hd : I d.bus) :
    let r := tcpPolls (Chip.dev sched faults).bus ⟨sockOf n⟩ polls d
    (∀ k, .ok k ∈ r.1 → k = 0) ∧ I r.2.bus := by
  induction polls generalizing d with
  | nil => exact ⟨fun _ => nofun, hd⟩
  | cons p ps ih =>
    obtain ⟨fuel, buf⟩ := p
    have h3 := (tcp_receive_unheard (sched := sched) (faults := faults) hn hT hI fuel buf).run (buf, d.bus) ⟨rfl, hd⟩
    rcases hr : Device.tcpReceive (Chip.dev sched faults).bus fuel ⟨sockOf n⟩ (buf, d) with ⟨r, buf', d'⟩
    rw [onSockBus_run hr] at h3
    unfold tcpPolls
    rw [hr]
    have h4 : (∀ k, r = .ok k → k = 0) ∧ I d'.bus := by
      cases r with
      | ok _ => exact ⟨fun k e => by cases e; exact h3.1, h3.2.2⟩
      | err _ => exact ⟨fun _ => nofun, h3.2⟩
      | panic => exact ⟨fun _ => nofun, h3.2⟩
      | fuel => exact ⟨fun _ => nofun, h3.2⟩
    have h5 := ih d' h4.2
    refine ⟨fun x hm => ?_, h5.2⟩
    rcases List.mem_cons.mp hm with hm | hm
    · exact h4.1 x hm.symm
    · exact h5.1 x hm

end W5500.Spec
