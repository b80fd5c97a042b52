import Verif.Proofs.SuccessMore
/-! # Opening a UDP socket in good order -/

namespace W5500.Spec
open W5500 socketn Sock
variable {E : Type} {sched : Nat → List (Nat × Act)} {faults : Nat → Option (E × Nat)}

/-- Not TCP, and no timeout is due. -/
structure Sock.NotDue (s : Sock) : Prop where
  mode : s.proto ≠ 1
  due : s.owed.getLsbD 3 = false

/-- Not TCP, and no timeout is announced or due. -/
structure Sock.Hushed (s : Sock) : Prop where
  mode : s.proto ≠ 1
  quiet : s.flag 3 = false

theorem notDue_stays {n : Nat} (hl : Lossless sched n) : Stays sched n NotDue := by
  intro k a ha s h
  refine ⟨by rw [act_proto]; exact h.mode, ?_⟩
  have hd := h.due
  have push : ∀ bs, (s.push bs).owed = s.owed := fun bs => (push_flags s bs).1
  cases a with
  | emit b =>
    cases b with
    | false => exact absurd ha (hl k)
    | true =>
      simp only [act]
      split
      · show (s.owed ||| 0x10).getLsbD 3 = false
        rw [BitVec.getLsbD_or, hd]
        rfl
      · exact hd
  | raise bits =>
    show (s.owed &&& ~~~bits).getLsbD 3 = false
    rw [BitVec.getLsbD_and, hd, Bool.false_and]
  | status x => exact hd
  | arrive bs => simp only [act]; split <;> first | exact hd | (rw [push]; exact hd)
  | datagram d => simp only [act]; split <;> first | exact hd | (rw [push]; exact hd)
  | frame f => simp only [act]; split <;> first | exact hd | (rw [push]; exact hd)
  | transmit k => simp only [act]; split <;> exact hd
  | ack k => simp only [act]; split <;> exact hd

theorem hushed_stays {n : Nat} (hl : Lossless sched n) : Stays sched n Hushed := by
  intro k a ha s h
  refine ⟨by rw [act_proto]; exact h.mode, ?_⟩
  by_cases he : ∃ b, a = .emit b
  · obtain ⟨b, rfl⟩ := he
    cases b with
    | false => exact absurd ha (hl k)
    | true =>
      have hq := h.quiet
      simp only [act]
      split
      · unfold flag at hq ⊢
        show (s.ir.getLsbD 3 || (s.owed ||| 0x10).getLsbD 3) = false
        rw [BitVec.getLsbD_or]
        show (_ || (_ || false)) = false
        rw [Bool.or_false]
        exact hq
      · exact hq
  · rw [(act_flags h.mode a fun b hb => absurd ⟨b, hb⟩ he).1 3 (.inl rfl)]
    exact h.quiet

section
variable {n : Nat} (hn : n < 8) (hf : ∀ i, faults i = none) (hl : Lossless sched n)
include hn hf hl

/-- After `open`, the socket is in good order. -/
theorem udp_prepared (u : UdpSocket) (hu : u.socket = sockOf n) :
    Hoare (At n NotDue) (u.open (Chip.dev sched faults).bus) (fun _ => At n fun s => ∃ K, Steady K s) (fun _ => True) := by
  have hB := faultless_chip (sched := sched) hf
  have hD := notDue_stays (sched := sched) (n := n) hl
  have hH := hushed_stays (sched := sched) (n := n) hl
  have hH2 : Stays sched n (fun s => Hushed s ∧ s.proto = 2) := fun k a ha s h =>
    ⟨hH k a ha s h.1, (act_proto s a).trans h.2⟩
  unfold UdpSocket.open Socket.command Socket.resetInterrupt Socket.setSourcePort Socket.setMode Socket.setInterruptMask
  rw [hu]
  have w : ∀ {P Q : Sock → Prop}, Stays sched n P → ∀ (a : U16) (x : U8), (∀ s, P s → Q (s.pokeReg a x)) →
      Hoare (At n P) ((Chip.dev sched faults).bus.write (sockOf n).register a [x]) (fun _ => At n Q) (fun _ => True) :=
    fun h a x hk => (h.write1 hn hf a x hk).exc fun _ h => h.elim
  refine .bind (w (Q := NotDue) hD _ _ fun s h => ⟨h.mode, h.due⟩) fun _ => ?_
  refine .bind (w (Q := Hushed) hD _ _ fun s h => ⟨h.mode, ?_⟩) fun _ => ?_
  · show ((s.ir &&& ~~~ (0xFF : U8)).getLsbD 3 || s.owed.getLsbD 3) = false
    rw [h.due, BitVec.getLsbD_and]
    show (_ && false || _) = false
    rw [Bool.and_false]
    rfl
  refine .bind (.exc (hH.writeReg hn _ _ fun i hi s h => ?_) fun _ _ => trivial) fun _ => ?_
  · have : i < 2 := hi
    match i, this with
    | 0, _ => exact ⟨h.mode, h.quiet⟩
    | 1, _ => exact ⟨h.mode, h.quiet⟩
  refine .bind (w (Q := fun s => Hushed s ∧ s.proto = 2) hH _ _ fun s h => ?_) fun _ => ?_
  · exact ⟨⟨nofun, h.quiet⟩, rfl⟩
  refine .bind (w (Q := fun s => Hushed s ∧ s.proto = 2) hH2 _ _ fun s h => ?_) fun _ => ?_
  · exact ⟨⟨h.1.mode, h.1.quiet⟩, h.2⟩
  · refine w hH2 _ _ fun s h => ⟨s.packets, ?_, ?_, ?_, [], (List.append_nil _).symm, nofun⟩
    · show (if s.proto = 1 then (0x13 : U8) else if s.proto = 2 then 0x22 else _) = _
      rw [if_neg h.1.mode, if_pos h.2]
    · exact h.2
    · have := h.1.quiet
      unfold flag at this
      rw [Bool.or_eq_false_iff] at this
      show (s.ir.getLsbD 3 || (0 : U8).getLsbD 3) = false
      rw [this.1]
      rfl

/-- After `connect`. -/
theorem udp_connectReady (hs : StatusIn sched n (· = 0x22)) (u : UdpSocket) (hu : u.socket = sockOf n) (a : SockAddr4) :
    HoareE (fun s : UdpSocket × Chip => s.1 = u ∧ At n NotDue s.2)
      (do
        let self := (← M.get).1
        M.mapErr UdpSocketError.other (M.onSnd (self.open (Chip.dev sched faults).bus))
        UdpSocket.setDestination (Chip.dev sched faults).bus a)
      (fun _ s => At n (fun s => ∃ K, Steady K s) s.2) (fun _ _ => True) := by
  refine .bind (Q := fun (d s : UdpSocket × Chip) => d.1 = u ∧ s.1 = u ∧ At n NotDue s.2) ⟨fun s h => ⟨h.1, h⟩⟩ fun d => ?_
  refine .fact fun hd => ?_
  rw [hd]
  refine .bind (.of (.mapErr (.onSnd' u (udp_prepared hn hf hl u hu))) fun _ _ _ => trivial) fun _ => ⟨fun s h => ?_⟩
  obtain ⟨h1, K, h2⟩ := h
  refine ((steady_setDestination (faults := faults) hn hf hs hl K u hu a).conseq (fun _ h => h) (fun _ t h => ?_)
    fun _ _ _ => trivial).run s ⟨h1, h2⟩
  have h : Steady K (t.2.socks n) := h
  exact ⟨K, h⟩

/-- After `bind`. -/
theorem udp_bindReady (u : UdpSocket) (hu : u.socket = sockOf n) (port : U16) :
    Hoare (fun s : UdpSocket × Chip => s.1 = u ∧ At n NotDue s.2)
      (do
        UdpSocket.setPort (Chip.dev sched faults).bus port
        let self := (← M.get).1
        M.mapErr UdpSocketError.other (M.onSnd (self.open (Chip.dev sched faults).bus)))
      (fun _ s => s.1 = { u with port := port } ∧ At n (fun s => ∃ K, Steady K s) s.2) (fun _ => True) := by
  have hsp : Hoare (At n NotDue) (u.socket.setSourcePort (Chip.dev sched faults).bus port) (fun _ => At n NotDue) (At n NotDue) := by
    unfold Socket.setSourcePort
    rw [hu]
    refine (notDue_stays hl).writeReg hn _ _ fun i hi s h => ?_
    have : i < 2 := hi
    match i, this with
    | 0, _ => exact ⟨h.mode, h.due⟩
    | 1, _ => exact ⟨h.mode, h.due⟩
  unfold UdpSocket.setPort
  refine .bind (Q := fun _ s => s.1 = { u with port := port } ∧ At n NotDue s.2)
    (.bind (.modify (Q := fun _ s => s.1 = { u with port := port } ∧ At n NotDue s.2) fun s h => ⟨by rw [h.1], h.2⟩) fun _ => ?_)
    fun _ => ?_
  · refine .bind (Q := fun d s => d.1 = { u with port := port } ∧ s.1 = { u with port := port } ∧ At n NotDue s.2)
      (.get fun s h => ⟨h.1, h⟩) fun d => .fact fun hd => ?_
    rw [hd]
    exact .exc (.mapErr (.onSnd' _ hsp)) fun _ _ => trivial
  · refine .bind (Q := fun d s => d.1 = { u with port := port } ∧ s.1 = { u with port := port } ∧ At n NotDue s.2)
      (.get fun s h => ⟨h.1, h⟩) fun d => .fact fun hd => ?_
    rw [hd]
    exact .exc (.mapErr (.onSnd' _ (udp_prepared hn hf hl _ hu))) fun _ _ => trivial

end
end W5500.Spec
