import Verif.Spec.Poll
import Verif.Proofs.Watch
import Verif.Proofs.Request
/-! # Polling a TCP connection -/

namespace W5500.Spec
open W5500 socketn Sock
variable {E H : Type} {sched : Nat → List (Nat × Act)} {faults : Nat → Option (E × Nat)} {n : Nat}

theorem arrivals_more {T t t' : Nat} (h1 : T ≤ t) (h2 : t ≤ t') : ∃ more, arrivals sched n T (t' - T) = arrivals sched n T (t - T) ++ more ∧
    ((∀ k, t ≤ k → k < t' → news n (sched k) = []) → more = []) ∧
    ∀ a bs, t ≤ a → a < t' → (∀ k, t ≤ k → k < t' → k ≠ a → news n (sched k) = []) → news n (sched a) = [.arrive bs] → more = bs := by
  obtain ⟨g, rfl⟩ : ∃ g, t' = t + g := ⟨t' - t, by omega⟩
  clear h2
  induction g with
  | zero => exact ⟨[], by rw [List.append_nil]; rfl, fun _ => rfl, fun a bs _ _ => by omega⟩
  | succ g ih =>
    obtain ⟨more, e1, e2, e3⟩ := ih
    rw [show t + (g + 1) - T = (t + g - T) + 1 by omega]
    refine ⟨more ++ (news n (sched (t + g))).flatMap Act.bytes, ?_, fun h => ?_, fun a bs k1 k2 h k3 => ?_⟩
    · rw [arrivals, e1, List.append_assoc, show T + (t + g - T) = t + g by omega]
    · rw [e2 fun k q1 q2 => h k q1 (by omega), h (t + g) (by omega) (by omega)]
      rfl
    · by_cases hk : a = t + g
      · subst hk
        rw [e2 fun k q1 q2 => h k q1 (by omega) (by omega), k3]
        simp [Act.bytes]
      · rw [e3 a bs k1 (by omega) (fun k q1 q2 q3 => h k q1 (by omega) q3) k3, h (t + g) (by omega) (by omega) (by omega)]
        simp

/-- The next piece comes at time `a`, and then nothing until time `q`; or (`q ≤ a`) nothing comes until time `a`. -/
def PieceAgenda (sched : Nat → List (Nat × Act)) (n t a q l : Nat) (bs : List U8) : Prop :=
  t ≤ a ∧ bs.length ≤ l ∧ (∀ k, t ≤ k → k < a → news n (sched k) = []) ∧
  (q ≤ a ∨ bs ≠ [] ∧ news n (sched a) = [.arrive bs] ∧ ∀ k, a < k → k < q → news n (sched k) = [])

theorem pieceAgenda_ticks {t a q z l : Nat} {X bs : List U8} (hl : l ≤ z) (h : PieceAgenda sched n t a q l bs) :
    Chip.Ticks sched (Timed n 1 t a q z X bs) := by
  obtain ⟨_, h0, h1, h2 | ⟨h2, h3, h4⟩⟩ := h
  · exact due_ticks h1 h2
  · exact timed_ticks h1 h3 (fun s hs => by simp only [act]; rw [if_pos hs]) (by omega) h4

theorem pieceAgenda {gap T t g l : Nat} (h : Apart sched n gap T l) (ht : T ≤ t) (hg : g ≤ gap) :
    ∃ a q bs, PieceAgenda sched n t a q l bs ∧ t + g ≤ q := by
  rcases first_news sched n t g with h1 | ⟨a, h1, h2, h3, h4⟩
  · exact ⟨t + g, t + g, [], ⟨by omega, Nat.zero_le _, h1, .inl (Nat.le_refl _)⟩, Nat.le_refl _⟩
  · obtain ⟨⟨bs, k1, k2, k3⟩, k4⟩ := h a (by omega) h4
    exact ⟨a, a + gap, bs, ⟨h1, k3, h3, .inr ⟨k2, k1, k4⟩⟩, by omega⟩

/-- A `receive`: it ends before the bytes come and returns 0, or it delivers them. -/
theorem due_tcp (hn : n < 8) (hf : ∀ i, faults i = none) {p T a q z : Nat} {X bs : List U8} {fuel k : Nat} {buf buf' : List U8}
    {d d' : Device Chip H} (hT : Chip.Ticks sched (Timed n p T a q z X bs)) (h3 : ∀ k, a < k → k < q → news n (sched k) = [])
    (hd : Timed n p T a q z X bs d.bus) (hk : d.bus.clock + (bs.length + 12) ≤ q)
    (h : Device.tcpReceive (Chip.dev sched faults).bus fuel ⟨sockOf n⟩ (buf, d) = (.ok k, (buf', d'))) :
    (k = 0 ∧ Timed n p T a q z X bs d'.bus ∧ d'.bus.clock = d.bus.clock + 2 ∧ d'.bus.clock ≤ a) ∨
    (k = min buf.length bs.length ∧ (d'.bus.socks n).arrived = X ++ bs ∧ a < d'.bus.clock ∧ d.bus.clock + 6 ≤ d'.bus.clock ∧
      d'.bus.clock ≤ d.bus.clock + (bs.length + 12)) := by
  have h := onSockBus_run h
  obtain ⟨x, c1, y, c2, h1, h2, h5⟩ := recv_split h
  have k1 := (Chip.read1_clock (sched := sched) (faults := faults) _ _ d.bus.clock).ok (s := d.bus) rfl h1
  have k2 := (Chip.read1_clock (sched := sched) (faults := faults) _ _ c1.clock).ok (s := c1) rfl h2
  have t2 := (hT.read1 (faults := faults) _ _).ok ((hT.read1 (faults := faults) _ _).ok hd h1) h2
  have e : y = (c2.socks n).ir := (Chip.read1_value (sched := sched) (faults := faults) hn 0x02).ok (s := c1) trivial h2
  rcases h5 with ⟨hy, rfl, e5⟩ | ⟨hy, v, c3, h5, h6⟩
  · left
    have hge : c2.clock ≤ a := by
      refine Nat.not_lt.mp fun hlt => ?_
      have := (t2.after hlt (by omega)).2.2
      unfold Announced at this
      rw [← e, hy] at this
      exact nomatch this
    rw [show d'.bus = c2 from e5]
    exact ⟨rfl, t2, by omega, by omega⟩
  · right
    have hlt : a < c2.clock := by
      refine Nat.not_le.mp fun hge => (t2.before hge).2.2 ?_
      unfold Announced
      rw [← e, hy]
    have ⟨k3, hv⟩ := size_once hn t2.fits hT t2 (fun c' hc' hk' => BitVec.eq_of_toNat_eq <| by
      rw [(hc'.after (by omega) (by omega)).2.1, (t2.after (by omega) (by omega)).2.1]) h5
    have t3 : Timed n p T a q z X bs c3 := (ticks_receiveSize hT fuel).ok t2 h5
    have hv : v.toNat = bs.length := by rw [hv]; exact (t2.after hlt (by omega)).2.1
    have hlen := tcpTail_len h6
    have hcost := ((co_tcpTail (Meter.chip_on sched faults) ⟨sockOf n⟩ v.toNat buf.length).run (buf, c3) (Nat.le_refl _)).1.2
    have hreach := (moves_tcpTail (B := (Chip.dev sched faults).bus) ⟨sockOf n⟩ v.toNat).run (buf, c3)
    rw [h6] at hcost hreach
    have hcome := reach_ticks hf (come_ticks (Y := X ++ bs) h3) (fun b ad d hfr i hi c hc => come_poke hn hfr i hi c hc) hreach
      ⟨by dsimp only; omega, fun hq => (t3.after (by omega) hq).1⟩
    have hcost : d'.bus.clock ≤ c3.clock + (v.toNat + 6) := hcost
    have hclock : c3.clock ≤ d'.bus.clock := reach_ticks (I := fun c => c3.clock ≤ c.clock) hf (clock_ticks _)
      (fun _ _ _ _ _ _ c hc => by rw [Chip.poke_clock]; exact hc) hreach (Nat.le_refl _)
    exact ⟨by rw [hlen, hv], hcome.arrived (by dsimp only; omega), hcome.late, by omega, by omega⟩

/-- What `I` is kept by in the meantime. -/
theorem tcpMeantime_keeps (hn : n < 8) (hf : ∀ i, faults i = none) {I : Chip → Prop} (hT : Chip.Ticks sched I)
    (hI : ∀ c c' : Chip, Aloof (c.socks n) (c'.socks n) → c'.clock = c.clock → I c → I c') {c c' : Chip}
    (h : TcpMeantime sched faults n c c') (hc : I c) : I c' := by
  cases h with
  | @send H d d' fuel data k h =>
    have hr : Reach (Chip.dev sched faults).bus (SendFrames (sockOf n)) d.bus
        (Device.tcpSend (Chip.dev sched faults).bus fuel ⟨Socket.new (BitVec.ofNat 8 n)⟩ data d).2.bus :=
      (MovesOn.onBus (movesOnly_tcpSend ⟨sockOf n⟩ fuel data)).run d
    rw [h] at hr
    exact reach_ticks hf hT (fun b a d hfr i hi c hc => hI _ _ (toFrames_aloof hn (.send hfr) i hi c) (Chip.poke_clock ..) hc) hr hc
  | read c b a d => exact hT.readsOnly (faults := faults) (.read b a d (.refl c)) hc
  | write c b a d hfo =>
    refine reach_ticks hf hT (F := Foreign n) (fun b a d hfr i hi c hc => hI _ _ ?_ (Chip.poke_clock ..) hc) (.write (.refl c) hfo) hc
    rw [foreign_poke hfr i hi c]
    exact ⟨⟨rfl, rfl, rfl, .rfl⟩, rfl, rfl⟩

end W5500.Spec
