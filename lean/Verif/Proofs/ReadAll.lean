import Verif.Spec.ReadAll
import Verif.Proofs.Wakeup
/-! # TCP receives that bring nothing -/

namespace W5500.Spec
open W5500 socketn Sock
variable {E ε α : Type} {sched : Nat → List (Nat × Act)} {faults : Nat → Option (E × Nat)}

theorem _root_.W5500.M.withLocal_eq_ok {σ β : Type} {m : M (β × σ) ε α} {x : β} {s s' : σ} {a : α × β} :
    M.withLocal x m s = (.ok a, s') ↔ m (x, s) = (.ok a.1, (a.2, s')) := by
  unfold M.withLocal
  rcases m (x, s) with ⟨_ | _ | _ | _, _, _⟩ <;> simp [Prod.ext_iff, and_assoc]

/-- Every action that is neither an arrival at a TCP socket nor an interrupt keeps the RX side. -/
theorem act_rx {s : Sock} (a : Act) (ht : s.proto = 1) (h1 : ∀ bs, a ≠ .arrive bs) (h2 : ∀ bits, a ≠ .raise bits) :
    (s.act a).ir = s.ir ∧ (s.act a).rsr = s.rsr ∧ (s.act a).queue = s.queue := by
  cases a with
  | arrive bs => exact absurd rfl (h1 bs)
  | raise bits => exact absurd rfl (h2 bits)
  | datagram d => simp [act, ht]
  | frame f => simp [act, ht]
  | transmit k => simp only [act]; split <;> exact ⟨rfl, rfl, rfl⟩
  | ack k => simp only [act]; split <;> exact ⟨rfl, rfl, rfl⟩
  | emit b => simp only [act]; split <;> exact ⟨rfl, rfl, rfl⟩
  | status x => exact ⟨rfl, rfl, rfl⟩

/-- Raising other interrupts does not touch RECV. -/
theorem raise_bit2 {s : Sock} {bits : U8} (h : bits.getLsbD 2 = false) : (s.act (.raise bits)).ir.getLsbD 2 = s.ir.getLsbD 2 := by
  show (s.ir ||| (if s.proto = 1 then bits else bits &&& (s.owed ||| 0xE7))).getLsbD 2 = _
  rw [BitVec.getLsbD_or]
  split
  · rw [h, Bool.or_false]
  · rw [BitVec.getLsbD_and, h, Bool.false_and, Bool.or_false]

/-- Bytes that arrive at a TCP socket. -/
theorem act_arrive {s : Sock} (h : RxFits s) (ht : s.proto = 1) (bs : List U8) :
    (s.rsr.toNat + bs.length ≤ s.rxSize ∧ (s.act (.arrive bs)).Announced ∧
      (s.act (.arrive bs)).rsr.toNat = s.rsr.toNat + bs.length) ∨
    (s.rxSize < s.rsr.toNat + bs.length ∧ s.act (.arrive bs) = s) := by
  have e : s.act (.arrive bs) = s.push bs := by simp only [act]; rw [if_pos ht]
  rw [e]
  by_cases hf : s.rsr.toNat + bs.length ≤ s.rxSize
  · refine .inl ⟨hf, ?_, (push_queue h hf).2⟩
    unfold Announced push
    rw [if_pos hf]
    show (s.ir ||| 4).getLsbD 2 = true
    rw [BitVec.getLsbD_or]
    exact Bool.or_true _
  · refine .inr ⟨by omega, ?_⟩
    unfold push
    rw [if_neg hf]

/-- Full and not announced, with `q` waiting. -/
def Stuck (q : List U8) (s : Sock) : Prop :=
  s.proto = 1 ∧ RxFits s ∧ s.rsr.toNat = s.rxSize ∧ s.ir.getLsbD 2 = false ∧ s.queue = q

/-- Nothing that arrives changes that. -/
theorem stuck_ticks {n : Nat} (hb : OnlyForBytes sched n) (q : List U8) : Chip.Ticks sched (At n (Stuck q)) := by
  refine ⟨fun c hc => ?_, fun _ _ h => h⟩
  refine (Chip.foldl_event (P := Stuck q) (D := fun _ => True) (a := .emit true) (sched c.clock) (fun s a ha h => ?_)
    (fun _ _ _ _ _ => trivial) (fun _ _ => trivial) c hc).1
  obtain ⟨h1, h2, h3, h4, h5⟩ := h
  obtain ⟨b1, b2⟩ := hb _ a ha
  have ha : ∀ bs, a = .arrive bs → s.act a = s := by
    rintro bs rfl
    rcases act_arrive h2 h1 bs with h | h
    · exact absurd (List.length_eq_zero_iff.mp (show bs.length = 0 by omega)) fun e => b1 (by rw [e])
    · exact h.2
  have hkeep : (s.act a).rsr = s.rsr ∧ (s.act a).queue = s.queue ∧ (s.act a).ir.getLsbD 2 = s.ir.getLsbD 2 := by
    have other : (∀ bs, a ≠ .arrive bs) → (∀ bits, a ≠ .raise bits) →
        (s.act a).rsr = s.rsr ∧ (s.act a).queue = s.queue ∧ (s.act a).ir.getLsbD 2 = s.ir.getLsbD 2 := fun e1 e2 =>
      let ⟨e1, e2, e3⟩ := act_rx a h1 e1 e2
      ⟨e2, e3, by rw [e1]⟩
    cases a with
    | arrive bs => rw [ha bs rfl]; exact ⟨rfl, rfl, rfl⟩
    | raise bits => exact ⟨rfl, rfl, raise_bit2 (b2 bits rfl)⟩
    | _ => exact other (fun _ => nofun) (fun _ => nofun)
  exact ⟨by rw [act_proto]; exact h1, (act_rxFits h2 a).1, by rw [hkeep.1, act_rxSize]; exact h3, by rw [hkeep.2.2]; exact h4,
    by rw [hkeep.2.1]; exact h5⟩

/-- What a TCP receive that returned `Ok` has read. -/
theorem recv_inv {n fuel k : Nat} {b b' : List U8} {c c' : Chip}
    (h : TcpSocket.socketReceive (Chip.dev sched faults).bus fuel ⟨sockOf n⟩ (b, c) = (.ok k, (b', c'))) :
    ∃ x c1 y c2, (Chip.dev sched faults).bus.read1 (sockOf n).register STATUS c = (.ok x, c1) ∧
      (Chip.dev sched faults).bus.read1 (sockOf n).register INTERRUPT c1 = (.ok y, c2) ∧
      ((y.getLsbD 2 = false ∧ k = 0 ∧ c' = c2) ∨
      (y.getLsbD 2 = true ∧ ∃ v c3, Socket.getReceiveSize (Chip.dev sched faults).bus (sockOf n) fuel c2 = (.ok v, c3) ∧
        k = min b.length v.toNat)) := by
  unfold TcpSocket.socketReceive TcpSocket.socketIsConnected Socket.hasInterrupt Socket.getStatus at h
  obtain ⟨_, ⟨b1, c1⟩, h1, h⟩ := M.bind_eq_ok.mp h
  obtain ⟨h1, e1⟩ := M.onSnd_eq_ok.mp h1
  obtain ⟨x, _, h1, h1'⟩ := M.bind_eq_ok.mp h1
  rw [M.mapErr_eq_ok] at h1
  cases h1'
  cases e1
  split at h
  · cases h
  obtain ⟨f, ⟨b2, c2⟩, h2, h⟩ := M.bind_eq_ok.mp h
  obtain ⟨h2, e2⟩ := M.onSnd_eq_ok.mp h2
  rw [M.mapErr_eq_ok] at h2
  obtain ⟨y, _, h2, h2'⟩ := M.bind_eq_ok.mp h2
  cases h2'
  cases e2
  refine ⟨x, _, y, _, h1, h2, ?_⟩
  split at h
  · rename_i hf
    left
    simp only [pure, M.pure, Prod.mk.injEq, Res.ok.injEq] at h
    exact ⟨recv_bit (by simpa using hf), h.1.symm, h.2.2.symm⟩
  · rename_i hf
    right
    obtain ⟨v, ⟨b3, c3⟩, h3, h⟩ := M.bind_eq_ok.mp h
    obtain ⟨h3, e3⟩ := M.onSnd_eq_ok.mp h3
    rw [M.mapErr_eq_ok] at h3
    cases e3
    refine ⟨recv_bit' (by simpa using hf), v, c3, h3, ?_⟩
    obtain ⟨s, s', h4, h⟩ := M.bind_eq_ok.mp h
    rw [M.get_eq_ok] at h4
    obtain ⟨rfl, rfl⟩ := h4
    dsimp only at h
    obtain ⟨_, _, _, h⟩ := M.bind_eq_ok.mp h
    obtain ⟨_, _, _, h⟩ := M.bind_eq_ok.mp h
    obtain ⟨_, _, _, h⟩ := M.bind_eq_ok.mp h
    obtain ⟨_, _, _, h⟩ := M.bind_eq_ok.mp h
    obtain ⟨_, _, _, h⟩ := M.bind_eq_ok.mp h
    simp only [pure, M.pure, Prod.mk.injEq, Res.ok.injEq] at h
    rw [← h.1]
    split <;> omega

/-- Either something is announced, and waits, or there is room. -/
structure Hopeful (s : Sock) : Prop where
  tcp : s.proto = 1
  fits : RxFits s
  some : s.Announced → 1 ≤ s.rsr.toNat
  room : s.Announced ∨ s.rsr.toNat < s.rxSize

theorem hopeful_act {n k : Nat} (hb : OnlyForBytes sched n) {s : Sock} {a : Act} (ha : (n, a) ∈ sched k) (h : Hopeful s) :
    Hopeful (s.act a) := by
  obtain ⟨b1, b2⟩ := hb k a ha
  have ht : (s.act a).proto = 1 := by rw [act_proto]; exact h.tcp
  have hf := act_rxFits h.fits a
  have same : (s.act a).ir.getLsbD 2 = s.ir.getLsbD 2 → (s.act a).rsr = s.rsr → Hopeful (s.act a) := by
    intro e1 e2
    have e3 : (s.act a).Announced ↔ s.Announced := by unfold Announced; rw [e1]
    exact ⟨ht, hf.1, fun h' => by rw [e2]; exact h.some (e3.mp h'), by rw [e2, e3, act_rxSize]; exact h.room⟩
  have other : (∀ bs, a ≠ .arrive bs) → (∀ bits, a ≠ .raise bits) → Hopeful (s.act a) := fun e1 e2 =>
    let ⟨e1, e2, _⟩ := act_rx a h.tcp e1 e2
    same (by rw [e1]) e2
  cases a with
  | arrive bs =>
    rcases act_arrive h.fits h.tcp bs with ⟨_, h1, h2⟩ | ⟨_, h1⟩
    · refine ⟨ht, hf.1, fun _ => ?_, .inl h1⟩
      have : bs.length ≠ 0 := fun e => b1 (by rw [List.length_eq_zero_iff.mp e])
      omega
    · rw [h1]; exact h
  | raise bits => exact same (raise_bit2 (b2 bits rfl)) rfl
  | _ => exact other (fun _ => nofun) (fun _ => nofun)

theorem announced_act {s : Sock} (a : Act) (h : s.Announced) : (s.act a).Announced := by
  have key : ∀ x : U8, x &&& 4 ≠ 0 ↔ x.getLsbD 2 = true := by decide +kernel
  exact (key _).mp (stable_recvPending s a ((key _).mpr h))

/-- After the next byte was tried, something is announced. -/
theorem feeding_ticks {n k : Nat} (hb : OnlyForBytes sched n) {b : U8} (ha : (n, .arrive [b]) ∈ sched k) :
    Chip.Ticks sched (fun c => Hopeful (c.socks n) ∧ (k < c.clock → (c.socks n).Announced)) := by
  have he : ∀ s, Hopeful s → (s.act (.arrive [b])).Announced := by
    intro s hs
    rcases act_arrive hs.fits hs.tcp [b] with ⟨_, h1, _⟩ | ⟨h0, h1⟩
    · exact h1
    · rw [h1]
      refine hs.room.resolve_right fun h => ?_
      simp only [List.length_singleton] at h0
      omega
  refine ⟨fun c hc => ?_, fun c k hc => hc⟩
  obtain ⟨h1, h2⟩ := Chip.foldl_event (P := Hopeful) (D := Announced) (a := .arrive [b]) (sched c.clock)
    (fun s a ha => hopeful_act hb ha) (fun s a _ _ h => announced_act a h) he c hc.1
  refine ⟨h1, fun hk => h2 ?_⟩
  rw [Chip.tick_clock] at hk
  by_cases hlt : k < c.clock
  · exact .inl (hc.2 hlt)
  · right
    rw [show c.clock = k by omega]
    exact ha

/-- A receive that brings nothing only passes time. -/
theorem zero_recv {n fuel : Nat} (hn : n < 8) {I : Chip → Prop} (hT : Chip.Ticks sched I) (hI : ∀ c, I c → Hopeful (c.socks n))
    {b b' : List U8} (hne : b ≠ []) {c c' : Chip} (hc : I c)
    (h : TcpSocket.socketReceive (Chip.dev sched faults).bus fuel ⟨sockOf n⟩ (b, c) = (.ok 0, (b', c'))) :
    I c' ∧ c.clock + 2 ≤ c'.clock := by
  obtain ⟨x, c1, y, c2, h1, h2, h3⟩ := recv_inv h
  have i1 := (hT.read1 (faults := faults) _ _).ok hc h1
  have i2 := (hT.read1 (faults := faults) _ _).ok i1 h2
  have k1 := (Chip.read1_clock (sched := sched) (faults := faults) _ _ c.clock).ok (s := c) rfl h1
  have k2 := (Chip.read1_clock (sched := sched) (faults := faults) _ _ c1.clock).ok (s := c1) rfl h2
  rcases h3 with ⟨_, _, rfl⟩ | ⟨hy, v, c3, h3, h4⟩
  · exact ⟨i2, by omega⟩
  · exfalso
    have e : y = (c2.socks n).ir := (Chip.read1_value (sched := sched) (faults := faults) hn 0x02).ok (s := c1) trivial h2
    have hH := hI _ i2
    have hP : StableS (fun s => RxFits s ∧ 1 ≤ s.rsr.toNat) :=
      fun s a h => ⟨(act_rxFits h.1 a).1, Nat.le_trans h.2 (act_rxFits h.1 a).2⟩
    obtain ⟨_, s0, h5, _, rfl⟩ := (hs_receiveSize (sched := sched) (faults := faults) hn hP (fun _ h => h.1) fuel).ok
      (s := c2) ⟨hH.fits, hH.some (by unfold Announced; rw [← e]; exact hy)⟩ h3
    have : b.length ≠ 0 := fun e => hne (List.length_eq_zero_iff.mp e)
    have := h5.2
    omega

end W5500.Spec
