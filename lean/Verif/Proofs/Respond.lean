import Verif.Spec.Respond
import Verif.Proofs.Poll
import Verif.Proofs.WriteAll
/-! # Answering on a TCP connection -/

namespace W5500.Spec
open W5500 socketn Sock
variable {E H : Type} {sched : Nat → List (Nat × Act)} {faults : Nat → Option (E × Nat)} {n : Nat}

/-- During the `gap` SPI bytes from `t` on there comes at most one piece. -/
theorem parcels_step {T t t' gap l : Nat} (h : Apart sched n gap T l) (h1 : T ≤ t) (h2 : t ≤ t') (h3 : t' ≤ t + gap) :
    (arrivals sched n T (t' - T) = arrivals sched n T (t - T) ∧ parcels sched n T (t' - T) = parcels sched n T (t - T) ∧
      ∀ k, t ≤ k → k < t' → news n (sched k) = []) ∨
    ∃ a bs, t ≤ a ∧ a < t' ∧ news n (sched a) = [.arrive bs] ∧ bs ≠ [] ∧ bs.length ≤ l ∧ (∀ k, a < k → k < a + gap → news n (sched k) = []) ∧
      arrivals sched n T (t' - T) = arrivals sched n T (t - T) ++ bs ∧ parcels sched n T (t' - T) = parcels sched n T (t - T) ++ [bs] := by
  obtain ⟨g, rfl⟩ : ∃ g, t' = t + g := ⟨t' - t, by omega⟩
  induction g with
  | zero => exact .inl ⟨rfl, rfl, fun k _ _ => by omega⟩
  | succ g ih =>
    have e1 : arrivals sched n T (t + (g + 1) - T) = arrivals sched n T (t + g - T) ++ (news n (sched (t + g))).flatMap Act.bytes := by
      rw [show t + (g + 1) - T = (t + g - T) + 1 by omega, arrivals, show T + (t + g - T) = t + g by omega]
    have e2 : parcels sched n T (t + (g + 1) - T) = parcels sched n T (t + g - T) ++ (news n (sched (t + g))).map Act.bytes := by
      rw [show t + (g + 1) - T = (t + g - T) + 1 by omega, parcels, show T + (t + g - T) = t + g by omega]
    rw [e1, e2]
    rcases ih (by omega) (by omega) with ⟨k1, k2, k3⟩ | ⟨a, bs, k1, k2, k3, k4, k5, k6, k7, k8⟩
    · by_cases hn : news n (sched (t + g)) = []
      · left
        rw [hn, k1, k2]
        refine ⟨List.append_nil _, List.append_nil _, fun k q1 q2 => ?_⟩
        by_cases hk : k = t + g
        · rw [hk, hn]
        · exact k3 k q1 (by omega)
      · obtain ⟨⟨bs, j1, j2, j3⟩, j4⟩ := h (t + g) (by omega) hn
        right
        refine ⟨t + g, bs, by omega, by omega, j1, j2, j3, j4, ?_, ?_⟩
        · rw [j1, k1]
          simp [Act.bytes]
        · rw [j1, k2]
          rfl
    · right
      have hn := k6 (t + g) (by omega) (by omega)
      rw [hn, k7, k8]
      exact ⟨a, bs, k1, by omega, k3, k4, k5, k6, List.append_nil _, List.append_nil _⟩

/-- The TX side of a TCP socket between calls. -/
def TxOk (s : Sock) : Prop := s.proto = 1 ∧ TxBase s

theorem stable_txOk : StableS TxOk := fun s a h => ⟨(act_proto s a).trans h.1, (act_txBase h.2 a).1⟩

theorem act_transmitted {s : Sock} (a : Act) (h : TxOk s) (hd : s.txRd = s.txLimit) : (s.act a).txRd = (s.act a).txLimit := by
  obtain ⟨hp, hb⟩ := h
  rw [act_txLimit]
  cases a with
  | arrive bs => simp only [act, if_pos hp]; rw [push_txRd, hd]
  | datagram d => simp only [act, if_neg (show ¬ (s.proto = 2 ∧ d.Wf) by rw [hp]; omega)]; exact hd
  | frame f => simp only [act, if_neg (show ¬ (s.proto = 4 ∧ f.length + 2 < 65536) by rw [hp]; omega)]; exact hd
  | transmit j =>
    simp only [act, if_pos hp, hd, BitVec.sub_self]
    simp
  | ack j => simp only [act, if_pos hp]; exact hd
  | emit d => simp only [act, if_neg (show ¬ ((s.proto = 2 ∨ s.proto = 4) ∧ s.txRd ≠ s.txLimit) by rw [hp]; omega)]; exact hd
  | raise b => exact hd
  | status x => exact hd

/-- What is to be transmitted is transmitted at time `i`, and acknowledged at time `j`. -/
def Emptying (n i j : Nat) (c : Chip) : Prop :=
  TxOk (c.socks n) ∧ (i < c.clock → (c.socks n).txRd = (c.socks n).txLimit) ∧ (j < c.clock → (c.socks n).used = 0)

theorem emptying_ticks {i j a b : Nat} (hij : i < j) (ha : 65536 ≤ a) (hb : 65536 ≤ b) (h1 : (n, .transmit a) ∈ sched i)
    (h2 : (n, .ack b) ∈ sched j) : Chip.Ticks sched (Emptying n i j) := by
  refine Chip.ticks_events (P := TxOk) (D := fun s => s.txRd = s.txLimit) (D' := fun s => s.used = 0) (fun _ s a _ h => stable_txOk s a h)
    (fun _ s a _ => act_transmitted a) (fun _ s a _ h hu => Nat.le_zero.mp (by have := (act_txBase h.2 a).2; omega)) hij h1 h2
    (fun s h => ?_) (fun s h hd => ?_)
  · rw [act_txLimit]
    simp only [act, if_pos h.1]
    rw [Nat.min_eq_right (by have := (s.txLimit - s.txRd).isLt; omega)]
    exact add_sub_ofNat _ _
  · have hu := h.2.used_eq
    have := (s.txRd - s.una).isLt
    rw [hd, BitVec.sub_self] at hu
    rw [ack_used h.1 h.2, hu, hd]
    simp
    omega

/-- Nothing is unacknowledged. -/
def Cleared (n : Nat) (c : Chip) : Prop := TxOk (c.socks n) ∧ (c.socks n).used = 0

theorem cleared_ticks : Chip.Ticks sched (Cleared n) := by
  have : StableS (fun s => TxOk s ∧ s.used = 0) := fun s a h => ⟨stable_txOk s a h.1, Nat.le_zero.mp (by have := (act_txBase h.1.2 a).2; omega)⟩
  exact (this.stays (sched := sched) (n := n)).ticks

/-- The TX side is the same. -/
structure SameTx (s s' : Sock) : Prop where
  proto : s'.proto = s.proto
  size : s'.txSize = s.txSize
  rd : s'.txRd = s.txRd
  limit : s'.txLimit = s.txLimit
  una : s'.una = s.una

theorem SameTx.ok {s s' : Sock} (e : SameTx s s') (h : TxOk s) : TxOk s' :=
  ⟨e.proto.trans h.1, by rw [e.size]; exact h.2.size, by rw [e.rd, e.una, e.limit, e.size]; exact h.2.fits⟩

theorem SameTx.used {s s' : Sock} (e : SameTx s s') : s'.used = s.used := by unfold Sock.used; rw [e.limit, e.una]

theorem recvFrames_sameTx (hn : n < 8) {b : U8} {a : U16} {d : List U8} (h : RecvFrames (sockOf n) b a d) (i : Nat) (hi : i < d.length) (c : Chip) :
    SameTx (c.socks n) ((c.poke (b.setWidth 5) (a + BitVec.ofNat 16 i) d[i]).socks n) := by
  cases h with
  | rd x y =>
    refine Chip.poke_reg' (P := SameTx (c.socks n)) hn ?_
    rcases index_two (by rfl) hi with rfl | rfl <;> exact ⟨rfl, rfl, rfl, rfl, rfl⟩
  | ir x =>
    refine Chip.poke_reg' (P := SameTx (c.socks n)) hn ?_
    obtain rfl := index_one (by rfl) hi
    exact ⟨rfl, rfl, rfl, rfl, rfl⟩
  | recv =>
    refine Chip.poke_reg' (P := SameTx (c.socks n)) hn ?_
    obtain rfl := index_one (by rfl) hi
    exact ⟨rfl, rfl, rfl, rfl, rfl⟩

/-- What a `receive` keeps. -/
theorem receive_keeps (hn : n < 8) (hf : ∀ i, faults i = none) {I : Chip → Prop} (hT : Chip.Ticks sched I)
    (hI : ∀ c c' : Chip, SameTx (c.socks n) (c'.socks n) → c'.clock = c.clock → I c → I c') {fuel k : Nat} {buf buf' : List U8}
    {d d' : Device Chip H} (h : Device.tcpReceive (Chip.dev sched faults).bus fuel ⟨sockOf n⟩ (buf, d) = (.ok k, (buf', d'))) (hd : I d.bus) :
    I d'.bus := by
  have hr := (movesRecv_tcpReceive (B := (Chip.dev sched faults).bus) ⟨sockOf n⟩ fuel).run (buf, d.bus)
  rw [show TcpSocket.socketReceive (Chip.dev sched faults).bus fuel ⟨sockOf n⟩ (buf, d.bus) = _ from onSockBus_run h] at hr
  exact reach_ticks hf hT (fun b a d hfr i hi c hc => hI _ _ (recvFrames_sameTx hn hfr i hi c) (Chip.poke_clock ..) hc) hr hd

theorem tcpSend_txSize (hn : n < 8) (hf : ∀ i, faults i = none) {x fuel k : Nat} {data : List U8} {d d' : Device Chip H}
    (h : Device.tcpSend (Chip.dev sched faults).bus fuel ⟨sockOf n⟩ data d = (.ok k, d')) (hd : (d.bus.socks n).txSize = x) :
    (d'.bus.socks n).txSize = x := by
  have hr : Reach (Chip.dev sched faults).bus (SendFrames (sockOf n)) d.bus
      (Device.tcpSend (Chip.dev sched faults).bus fuel ⟨sockOf n⟩ data d).2.bus := (MovesOn.onBus (movesOnly_tcpSend ⟨sockOf n⟩ fuel data)).run d
  rw [h] at hr
  refine reach_ticks (I := fun c => (c.socks n).txSize = x) hf ((stable_txSize x).stays (n := n)).ticks (fun b a d hfr i hi c hc => ?_) hr hd
  cases hfr with
  | tx a d => exact Chip.poke_tx' (P := fun s => s.txSize = x) hn hc
  | wr y z =>
    refine Chip.poke_reg' (P := fun s => s.txSize = x) hn ?_
    rcases index_two (by rfl) hi with rfl | rfl <;> exact hc
  | ir y hy =>
    refine Chip.poke_reg' (P := fun s => s.txSize = x) hn ?_
    obtain rfl := index_one (by rfl) hi
    exact hc
  | send =>
    refine Chip.poke_reg' (P := fun s => s.txSize = x) hn ?_
    obtain rfl := index_one (by rfl) hi
    exact hc

theorem ConfirmingIn.again {L : Nat} (h : ConfirmingIn L sched n) : Confirming sched n := fun k =>
  have ⟨l, h1, _, h3⟩ := h k
  ⟨l, h1, h3⟩

end W5500.Spec
