import Verif.Spec.Disclosure
import Verif.Proofs.Wakeup
import Verif.Proofs.Sendok
/-! # The contents of the buffer after a UDP receive -/

namespace W5500.Spec
open W5500 socketn Sock
variable {E ε α : Type} {sched : Nat → List (Nat × Act)} {faults : Nat → Option (E × Nat)}

namespace Chip

/-- Reading a block of which the contents are known as time passes. -/
theorem Ticks.readBytes_value {I : Chip → Prop} (h : Ticks sched I) {b : BitVec 5} {v : U16 → U8} (n : Nat) (c : Chip)
    (a : U16) (hv : ∀ c, I c → ∀ i, i < n → c.peek b (a + BitVec.ofNat 16 i) = v (a + BitVec.ofNat 16 i)) (hc : I c) :
    ((dev sched faults).readBytes c b a n).1 = (List.range n).map fun i => v (a + BitVec.ofNat 16 i) := by
  induction n generalizing c a with
  | zero => rfl
  | succ n ih =>
    have h1 := h.tick c hc
    have h0 := hv _ h1 0 (Nat.succ_pos _)
    have he : ∀ i, a + 1 + BitVec.ofNat 16 i = a + BitVec.ofNat 16 (i + 1) := fun i => by
      rw [BitVec.add_assoc, show (1 : U16) = BitVec.ofNat 16 1 from rfl, ← BitVec.ofNat_add, Nat.add_comm]
    rw [show a + BitVec.ofNat 16 0 = a from BitVec.add_zero a] at h0
    show (c.tick sched).peek b a :: ((dev sched faults).readBytes (c.tick sched) b (a + 1) n).1 = _
    rw [ih _ _ (fun c hc i hi => by rw [he]; exact hv c hc (i + 1) (Nat.succ_lt_succ hi)) h1, h0, List.range_succ_eq_map,
      List.map_cons, List.map_map]
    congr 1
    · exact congrArg v (BitVec.add_zero a).symm
    · exact List.map_congr_left fun i _ => congrArg v (he i)

theorem Ticks.readFrame_value {I : Chip → Prop} (h : Ticks sched I) {b : U8} {v : U16 → U8} {a : U16} {d d' : List U8}
    (hv : ∀ c, I c → ∀ i, i < d.length → c.peek (b.setWidth 5) (a + BitVec.ofNat 16 i) = v (a + BitVec.ofNat 16 i)) {c c' : Chip}
    (hc : I c)
    (hr : (dev sched faults).bus.readFrame c b a d = (.ok (), d', c')) :
    d' = (List.range d.length).map fun i => v (a + BitVec.ofNat 16 i) := by
  simp only [ByteDev.bus] at hr
  split at hr
  · rename_i c1 hc1
    have : c1 = { c with txn := c.txn + 1 } := by simp only [dev, Prod.mk.injEq] at hc1; exact hc1.2.symm
    subst this
    simp only [Prod.mk.injEq, true_and] at hr
    rw [← hr.1]
    exact h.readBytes_value _ _ _ hv (h.txn c _ hc)
  · simp at hr

theorem Ticks.readBuf_value {I : Chip → Prop} (h : Ticks sched I) {b : U8} {v : U16 → U8} (a : U16) (d : List U8)
    (hv : ∀ c, I c → ∀ i, i < d.length → c.peek (b.setWidth 5) (a + BitVec.ofNat 16 i) = v (a + BitVec.ofNat 16 i)) :
    Hoare I ((dev sched faults).bus.readBuf b a d)
      (fun x c => x = ((List.range d.length).map fun i => v (a + BitVec.ofNat 16 i)) ∧ I c) I := by
  constructor
  intro c hc
  have h1 := h.readFrame (faults := faults) c b a d hc
  unfold Bus.readBuf
  rcases hr : (dev sched faults).bus.readFrame c b a d with ⟨_ | _ | _ | _, d', c'⟩
  · rw [hr] at h1; exact ⟨h.readFrame_value hv hc hr, h1⟩
  all_goals rw [hr] at h1; exact h1

theorem Ticks.readSlice_value {I : Chip → Prop} (h : Ticks sched I) {b : U8} {v : U16 → U8} (a : U16) (k : Nat)
    (hv : ∀ c, I c → ∀ i, i < k → c.peek (b.setWidth 5) (a + BitVec.ofNat 16 i) = v (a + BitVec.ofNat 16 i)) :
    Hoare (fun s : List U8 × Chip => s.1.length = k ∧ I s.2) ((dev sched faults).bus.readSlice b a)
      (fun _ s => s.1 = ((List.range k).map fun i => v (a + BitVec.ofNat 16 i)) ∧ I s.2) (fun _ => True) := by
  constructor
  rintro ⟨d, c⟩ ⟨rfl, hc⟩
  have h1 := h.readFrame (faults := faults) c b a d hc
  unfold Bus.readSlice
  rcases hr : (dev sched faults).bus.readFrame c b a d with ⟨_ | _ | _ | _, d', c'⟩
  · rw [hr] at h1; exact ⟨h.readFrame_value hv hc hr, h1⟩
  all_goals trivial

/-- A 16-bit register of which the contents are known as time passes. -/
theorem Ticks.read2_value {I : Chip → Prop} (h : Ticks sched I) {b : U8} {v : U16 → U8} (a : U16)
    (hv : ∀ c, I c → ∀ i, i < 2 → c.peek (b.setWidth 5) (a + BitVec.ofNat 16 i) = v (a + BitVec.ofNat 16 i)) :
    Hoare I ((dev sched faults).bus.read2 b a) (fun x c => x = v a ++ v (a + 1) ∧ I c) I := by
  refine .bind (h.readBuf_value a [0, 0] hv) fun d => .fact fun hd => ?_
  subst hd
  refine .pure fun c hc => ⟨?_, hc⟩
  show v (a + BitVec.ofNat 16 0) ++ v (a + BitVec.ofNat 16 1) = v a ++ v (a + 1)
  rw [show a + BitVec.ofNat 16 0 = a from BitVec.add_zero a]
  rfl

end Chip

/-- The RX memory is `m`, of `z` bytes, and the host's read pointer is `p`. -/
structure Frozen (m : Nat → U8) (z : Nat) (p : U16) (s : Sock) : Prop where
  rxMem : s.rxMem = m
  rxSize : s.rxSize = z
  reg : s.rxRdReg = p

theorem frozen_ticks {n t : Nat} (m : Nat → U8) (z : Nat) (p : U16) (hq : NoArrivals sched n t) :
    Chip.Ticks sched (fun c => t ≤ c.clock ∧ At n (Frozen m z p) c) := by
  refine ⟨fun c hc => ⟨?_, ?_⟩, fun _ _ h => h⟩
  · rw [Chip.tick_clock]; exact Nat.le_succ_of_le hc.1
  · refine (Chip.foldl_event (P := Frozen m z p) (D := fun _ => True) (a := .emit true) (sched c.clock) (fun s a ha h => ?_)
      (fun _ _ _ _ _ => trivial) (fun _ _ => trivial) c hc.2).1
    obtain ⟨h1, h2, h3⟩ := hq c.clock hc.1 a ha
    obtain ⟨f1, f2, f3⟩ := h
    cases a with
    | arrive bs => exact absurd rfl (h1 bs)
    | datagram d => exact absurd rfl (h2 d)
    | frame f => exact absurd rfl (h3 f)
    | transmit k => simp only [act]; split <;> exact ⟨f1, f2, f3⟩
    | ack k => simp only [act]; split <;> exact ⟨f1, f2, f3⟩
    | emit b => simp only [act]; split <;> exact ⟨f1, f2, f3⟩
    | raise bits => exact ⟨f1, f2, f3⟩
    | status x => exact ⟨f1, f2, f3⟩

theorem hi_append (a b : U8) : (a ++ b : U16).extractLsb' 8 8 = a := by
  apply BitVec.eq_of_toNat_eq
  have := b.isLt
  have := a.isLt
  simp only [BitVec.extractLsb'_toNat, BitVec.toNat_append, Nat.shiftLeft_eq, Nat.shiftRight_eq_div_pow]
  rw [Nat.mul_comm, ← Nat.two_pow_add_eq_or_of_lt b.isLt]
  omega

theorem lo_append (a b : U8) : (a ++ b : U16).extractLsb' 0 8 = b := by
  apply BitVec.eq_of_toNat_eq
  have := b.isLt
  have := a.isLt
  simp only [BitVec.extractLsb'_toNat, BitVec.toNat_append, Nat.shiftLeft_eq, Nat.shiftRight_eq_div_pow]
  rw [Nat.mul_comm, ← Nat.two_pow_add_eq_or_of_lt b.isLt]
  omega

theorem ticks_receiveSize {I : Chip → Prop} (h : Chip.Ticks sched I) {s : Socket} (fuel : Nat) :
    Hoare I (s.getReceiveSize (Chip.dev sched faults).bus fuel) (fun _ => I) I := by
  induction fuel with
  | zero => exact ⟨fun _ h => h⟩
  | succ fuel ih =>
    exact .bind (h.read2 _ _) fun _ => .bind (h.read2 _ _) fun _ => .ite (fun _ => .pure fun _ h => h) fun _ => ih

/-- With nothing arriving, a UDP receive that returns `Ok` has copied the RX memory behind the header. -/
theorem udp_receive_copies {n t : Nat} (hn : n < 8) (hq : NoArrivals sched n t) (m : Nat → U8) (z : Nat) (hz : z ∣ 65536) (p : U16)
    (u : UdpSocket) (hu : u.socket = sockOf n) (fuel : Nat) (b0 : List U8) :
    Hoare (fun s : List U8 × Chip => s.1 = b0 ∧ t ≤ s.2.clock ∧ At n (Frozen m z p) s.2)
      (u.socketReceive (Chip.dev sched faults).bus fuel)
      (fun x s => x.1 ≤ b0.length ∧ s.1 = ring m z (p + 8) x.1 ++ b0.drop x.1) (fun _ => True) := by
  have hT := frozen_ticks m z p hq
  constructor
  rintro ⟨b, c⟩ ⟨hb, hs⟩
  have hb : b = b0 := hb
  subst hb
  rw [receive_split]
  refine Hoare.run (P := fun s : List U8 × Chip => s.1 = b ∧ t ≤ s.2.clock ∧ At n (Frozen m z p) s.2) ?_ (b, c) ⟨rfl, hs⟩
  refine .bind (.exc (.onSnd' b (P := fun c => t ≤ c.clock ∧ At n (Frozen m z p) c)
    (R := fun c => t ≤ c.clock ∧ At n (Frozen m z p) c)
    (Q := fun x c => x.2.1 = p ∧ t ≤ c.clock ∧ At n (Frozen m z p) c) ?_) fun _ _ => trivial) fun x => ?_
  · unfold recvHead UdpSocket.checkStatus Socket.getStatus Socket.hasInterrupt
    rw [hu]
    refine .bind (Q := fun _ c => t ≤ c.clock ∧ At n (Frozen m z p) c) ?_ fun _ => ?_
    · refine .bind (.mapErr (hT.read1 _ _)) fun x => ?_
      split
      · exact .pure fun _ h => h
      · exact .throw fun _ h => h
      · exact .throw fun _ h => h
    refine .bind (Q := fun _ c => t ≤ c.clock ∧ At n (Frozen m z p) c)
      (.mapErr (.bind (hT.read1 _ _) fun x => .pure fun _ h => h)) fun y => ?_
    refine .ite (fun _ => .throw fun _ h => h) fun _ => ?_
    refine .bind (Q := fun _ c => t ≤ c.clock ∧ At n (Frozen m z p) c) (.mapErr ?_) fun v => ?_
    · exact ticks_receiveSize hT fuel
    dsimp only
    refine .ite (fun _ => .throw fun _ h => h) fun hv => ?_
    refine .ite (fun _ => .throw fun _ h => h) fun _ => ?_
    refine .bind (Q := fun x c => x = p ∧ t ≤ c.clock ∧ At n (Frozen m z p) c) (.mapErr ?_) fun q => ?_
    · refine .post (hT.read2_value (v := fun a => if a = 0x28 then p.extractLsb' 8 8 else p.extractLsb' 0 8) _
        fun c hc i hi => ?_) fun x c h => ⟨h.1.trans (whole p), h.2⟩
      rw [Chip.peek_reg hn]
      have h1 := hc.2.reg
      have hw : (c.socks n).mem 0x28 ++ (c.socks n).mem (0x28 + 1) = p := h1
      rw [← hw]
      rcases (by omega : i = 0 ∨ i = 1) with rfl | rfl
      · exact (hi_append _ _).symm
      · exact (lo_append _ _).symm
    refine .fact fun hp => ?_
    subst hp
    refine .bind (.mapErr (hT.readBuf _ _ _)) fun h => ?_
    split
    · exact .panic fun _ h => h
    · exact .pure fun _ h => ⟨rfl, h⟩
  · refine .pre (P := fun s : List U8 × Chip => x.2.1 = p ∧ s.1 = b ∧ t ≤ s.2.clock ∧ At n (Frozen m z p) s.2)
      (.fact fun hp => ?_) fun s h => ⟨h.2.1, h.1, h.2.2⟩
    rw [hp]
    unfold recvTail
    rw [hu]
    dsimp only
    generalize max (min x.1 b.length) x.2.2.len = k
    refine .bind (Q := fun _ (s : List U8 × Chip) => k ≤ b.length ∧ s.1 = ring m z (p + 8) k ++ b.drop k)
      (.withPrefix (fun buf hk => ?_) fun _ _ _ => trivial) fun _ => ?_
    · refine .pre (P := fun s : List U8 × Chip => buf = b ∧ s.1.length = k ∧ t ≤ s.2.clock ∧ At n (Frozen m z p) s.2)
        (.fact fun hb => ?_) fun s h => ⟨h.2.1, by rw [h.1, List.length_take]; omega, h.2.2⟩
      subst hb
      refine .mapErr (.conseq (hT.readSlice_value (v := fun a => m (a.toNat % z)) (p + 8) k fun c hc i _ => ?_)
        (fun _ h => h) (fun _ s h => ⟨hk, ?_⟩) fun _ h => h)
      · rw [Chip.peek_rx hn]
        show (c.socks n).rxMem (_ % (c.socks n).rxSize) = _
        rw [hc.2.rxMem, hc.2.rxSize]
      · show s.1 ++ _ = _
        rw [h.1]
        congr 1
        unfold ring
        apply List.map_congr_left
        intro i _
        exact congrArg m (ptr_mod hz _ _)
    have hkeep : ∀ (m' : M Chip (NbError (UdpSocketError E)) Unit),
        Hoare (fun s : List U8 × Chip => k ≤ b.length ∧ s.1 = ring m z (p + 8) k ++ b.drop k) (M.onSnd m')
        (fun _ s => k ≤ b.length ∧ s.1 = ring m z (p + 8) k ++ b.drop k) (fun _ => True) := by
      intro m'
      refine .onSnd fun b' => ⟨fun c h => ?_⟩
      generalize m' c = r
      obtain ⟨_ | _ | _ | _, _⟩ := r
      · exact h
      all_goals trivial
    exact .bind (hkeep _) fun _ => .bind (hkeep _) fun _ => .bind (hkeep _) fun _ => .pure fun _ h => h

end W5500.Spec
