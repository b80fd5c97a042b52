import Verif.Proofs.Reply
/-! # How long a frame waits -/

namespace W5500.Spec
open W5500 socketn Sock
variable {E : Type} {sched : Nat → List (Nat × Act)} {faults : Nat → Option (E × Nat)} {n : Nat}

/-- What was queued, and what came `(q0.length + k + 2) * P` SPI bytes ago, is taken. -/
theorem Behind.waited {P k s T : Nat} (hP : 0 < P) (hp : Paced sched n P k s T) {q0 taken rest : List (List U8)} {q s0 j t : Nat}
    (h : Behind sched n P T q0 taken rest q s0 j t) {x : Nat} (hx : x ≤ t + P) {g : Nat} (hg : T + g + (q0.length + k + 2) * P ≤ x) :
    q0 ++ flow sched n T g <+: taken := by
  obtain ⟨⟨b1, b2⟩, hc, hr, hw, ho⟩ := h
  have e1 : (q0.length + k + 2) * P = (q0.length + k + 1) * P + P := by
    rw [show q0.length + k + 2 = (q0.length + k + 1) + 1 from rfl, Nat.add_mul (q0.length + k + 1)]; omega
  have h1 : T + g + (q0.length + k + 1) * P ≤ t := by omega
  have e2 : flow sched n T (t - T) = flow sched n T g ++ flow sched n (T + g) (t - T - g) := by
    rw [← flow_add, show g + (t - T - g) = t - T by omega]
  have p1 : q0 ++ flow sched n T g <+: taken ++ rest := ⟨_, by rw [hr, e2, List.append_assoc]⟩
  refine List.prefix_of_prefix_length_le p1 ⟨_, rfl⟩ ?_
  have e3 := congrArg List.length (flow_split (sched := sched) (n := n) b1 b2)
  have e4 := congrArg List.length hr
  rw [List.length_append] at e3
  rw [List.length_append, List.length_append] at e4
  rw [List.length_append]
  have hjk : s0 ≤ T + g → q0.length + k ≤ j := fun hs => by
    rcases Nat.lt_or_ge j (q0.length + k) with hj | hj
    · have := Nat.mul_le_mul_right P (show j + 2 ≤ q0.length + k + 1 by omega)
      have : (j + 2) * P = (j + 1) * P + P := by rw [show j + 2 = (j + 1) + 1 from rfl, Nat.add_mul (j + 1)]; omega
      omega
    · exact hj
  by_cases hs : T + g ≤ s0
  · have e5 := congrArg List.length (flow_add (sched := sched) (n := n) T g (s0 - T - g))
    rw [List.length_append, show g + (s0 - T - g) = s0 - T by omega] at e5
    rcases ho with ho | ⟨ho, hT⟩
    · omega
    · have := hjk (by omega)
      have e6 : flow sched n T g = [] := by rw [show g = 0 by omega]; rfl
      rw [e6]
      simp only [List.length_nil]
      omega
  · have e5 := congrArg List.length (flow_add (sched := sched) (n := n) T (s0 - T) (T + g - s0))
    rw [List.length_append, show s0 - T + (T + g - s0) = g by omega, show T + (s0 - T) = s0 by omega] at e5
    have h3 := hp.rate s0 (T + g - s0) b1
    have hjk := hjk (by omega)
    have h4 : (T + g - s0) / P ≤ j - (q0.length + k) := by
      refine Nat.div_le_of_le_mul ?_
      have : (j + 1) * P = P * (j - (q0.length + k)) + (q0.length + k + 1) * P := by rw [Nat.mul_comm P, ← Nat.add_mul]; congr 1; omega
      omega
    omega

/-! ## A call takes some time -/

theorem receiveSize_least {s : Socket} {fuel : Nat} {v : U16} {c c' : Chip} (h : s.getReceiveSize (Chip.dev sched faults).bus fuel c = (.ok v, c')) :
    c.clock + 4 ≤ c'.clock := by
  induction fuel generalizing c with
  | zero => cases h
  | succ fuel ih =>
    unfold Socket.getReceiveSize at h
    obtain ⟨x, c1, h1, h⟩ := M.bind_eq_ok.mp h
    obtain ⟨y, c2, h2, h⟩ := M.bind_eq_ok.mp h
    have e1 := (Chip.read2_clock (sched := sched) (faults := faults) _ _ c.clock).ok (s := c) rfl h1
    have e2 := (Chip.read2_clock (sched := sched) (faults := faults) _ _ c1.clock).ok (s := c1) rfl h2
    split at h
    · cases h
      omega
    · have := ih h
      omega

/-- `read_frame` takes at least six SPI bytes: the size twice and the pointer. -/
theorem readFrame_least (hf : ∀ i, faults i = none) {r : RawDevice} {fuel : Nat} {b b' : List U8} {m : Nat} {c c' : Chip}
    (h : r.readFrame (Chip.dev sched faults).bus fuel (b, c) = (.ok m, (b', c'))) : c.clock + 6 ≤ c'.clock := by
  rw [readFrame_split] at h
  obtain ⟨x, ⟨b1, c1⟩, h1, h2⟩ := M.bind_eq_ok.mp h
  obtain ⟨h1, e⟩ := M.onSnd_eq_ok.mp h1
  have k1 : c.clock + 6 ≤ c1.clock := by
    unfold rawHead Socket.getRxReadPointer at h1
    obtain ⟨v, c2, g1, h1⟩ := M.bind_eq_ok.mp h1
    obtain ⟨p, c3, g2, h1⟩ := M.bind_eq_ok.mp h1
    have e1 : c.clock + 4 ≤ c2.clock := receiveSize_least g1
    have e2 := (Chip.read2_clock (sched := sched) (faults := faults) _ _ c2.clock).ok (s := c2) rfl g2
    refine Hoare.ok (P := fun x : Chip => c.clock + 6 ≤ x.clock) (Q := fun _ x => c.clock + 6 ≤ x.clock) (R := fun _ => True) ?_
      (show c.clock + 6 ≤ c3.clock by omega) h1
    refine .ite (fun _ => .pure fun _ h => h) fun _ => .bind ((clock_ticks _).readBuf _ _ _ |>.exc fun _ _ => trivial) fun hd => ?_
    split
    · exact .pure fun _ h => h
    · exact .panic fun _ _ => trivial
  cases x with
  | none => cases h2; exact k1
  | some x =>
    obtain ⟨p, av, ex⟩ := x
    have hm := (moves_rawTail (B := (Chip.dev sched faults).bus) r.rawSocket b.length p av ex).run (b1, c1)
    rw [show rawTail (Chip.dev sched faults).bus r.rawSocket b.length p av ex (b1, c1) = (.ok m, (b', c')) from h2] at hm
    exact reach_ticks hf (clock_ticks (c.clock + 6)) (fun _ _ _ _ i hi x hx => by rw [Chip.poke_clock]; exact hx) hm k1

/-- So the time goes on with the calls. -/
theorem reads_least {r : RawDevice} (hr : r = ⟨sockOf 0⟩) (hf : ∀ i, faults i = none) {P k s y : Nat} {c0 : Chip} {K0 : List Packet} {A : List U8}
    (hp : Paced sched 0 P k s c0.clock) {q0 : List (List U8)} (hz : (q0.length + k + 2) * s ≤ (c0.socks 0).rxSize)
    (h0 : RawIdle K0 A y [] (c0.socks 0)) (hq : (c0.socks 0).queue = encFrames q0) (hqs : ∀ f ∈ q0, f.length + 2 ≤ s)
    {got : List RawGot} {t : Nat} {c : Chip} (h : Reads sched faults r P c0 got t c) : c0.clock + 6 * got.length ≤ t ∧ t ≤ c.clock := by
  refine ⟨?_, by obtain ⟨_, _, _, _, h5, _⟩ := flowInv hr hf hp hz h0 hq hqs h; exact h5.start⟩
  induction h with
  | start => exact Nat.le_refl _
  | readFrame fuel buf buf' m hh hm _ ih =>
    obtain ⟨_, _, _, _, h5, _⟩ := flowInv hr hf hp hz h0 hq hqs hh
    have h6 := h5.start
    have := readFrame_least hf hm
    rw [List.length_append, List.length_singleton]
    omega
  | meantime _ _ ih => exact ih

end W5500.Spec
