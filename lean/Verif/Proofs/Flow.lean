import Verif.Spec.Flow
import Verif.Proofs.Bridge
import Verif.Props.Raw
import Verif.Props.Success
import Verif.Proofs.Cost
/-! # Frames that come to a MACRAW socket over time -/

namespace W5500.Spec
open W5500 socketn Sock
variable {E : Type} {sched : Nat → List (Nat × Act)} {faults : Nat → Option (E × Nat)} {n : Nat}

/-! ## What comes -/

theorem framesOf_cons (e : Nat × Act) (l : List (Nat × Act)) :
    framesOf n (e :: l) = (if e.1 = n then e.2.frame? else none).toList ++ framesOf n l := by
  unfold framesOf
  rw [List.filterMap_cons]
  cases (if e.1 = n then e.2.frame? else none) <;> rfl

theorem flow_add (T g h : Nat) : flow sched n T (g + h) = flow sched n T g ++ flow sched n (T + g) h := by
  induction h with
  | zero => exact (List.append_nil _).symm
  | succ h ih => rw [← Nat.add_assoc, flow, ih, flow, List.append_assoc, Nat.add_assoc]

theorem flow_split {T t t' : Nat} (h1 : T ≤ t) (h2 : t ≤ t') :
    flow sched n T (t' - T) = flow sched n T (t - T) ++ flow sched n t (t' - t) := by
  have := flow_add (sched := sched) (n := n) T (t - T) (t' - t)
  rw [show t - T + (t' - t) = t' - T by omega, show T + (t - T) = t by omega] at this
  exact this

theorem encFrames_bound {s : Nat} {fs : List (List U8)} (h : ∀ f ∈ fs, f.length + 2 ≤ s) : (encFrames fs).length ≤ fs.length * s := by
  induction fs with
  | nil => exact Nat.zero_le _
  | cons f fs ih =>
    have := ih fun x hx => h x (List.mem_cons_of_mem _ hx)
    have := h f (List.mem_cons_self ..)
    rw [encFrames_cons, List.length_append, encodeFrame_length, List.length_cons, Nat.add_mul]
    omega

/-! ## Nothing is lost while there is room -/

/-- An event on a MACRAW socket: a frame is stored if there is room; nothing else is. -/
theorem flow_act {s : Sock} {B : List U8} (hp : s.proto = 4) (hc : RxCore B s) (a : Act) (hl : ∀ f ∈ a.frame?.toList, f.length + 2 < 65536)
    (hr : s.arrived.length + (encFrames a.frame?.toList).length ≤ B.length + s.rxSize) :
    (s.act a).arrived = s.arrived ++ encFrames a.frame?.toList := by
  have same : ∀ s' : Sock, s'.arrived = s.arrived → s'.arrived = s.arrived ++ encFrames [] := fun s' e => e.trans (List.append_nil _).symm
  cases a with
  | frame f =>
    have hl : f.length + 2 < 65536 := hl f (List.mem_cons_self ..)
    have e : s.act (.frame f) = s.push (encodeFrame f) := by simp only [act]; rw [if_pos ⟨hp, hl⟩]
    have e1 : encFrames (Act.frame f).frame?.toList = encodeFrame f := List.append_nil _
    rw [e1] at hr ⊢
    have h3 := congrArg List.length hc.arrived
    rw [List.length_append, queue_length] at h3
    rw [e, push, if_pos (by omega)]
  | arrive bs => exact same _ (by simp [act, hp])
  | datagram d => exact same _ (by simp [act, hp])
  | transmit k => exact same _ (by simp only [act]; split <;> rfl)
  | ack k => exact same _ (by simp only [act]; split <;> rfl)
  | emit b => exact same _ (by simp only [act]; split <;> rfl)
  | raise b => exact same _ rfl
  | status x => exact same _ rfl

theorem flow_events {B : List U8} {l : List (Nat × Act)} {c : Chip} (hp : (c.socks n).proto = 4) (hc : RxCore B (c.socks n))
    (hl : ∀ f ∈ framesOf n l, f.length + 2 < 65536)
    (hr : (c.socks n).arrived.length + (encFrames (framesOf n l)).length ≤ B.length + (c.socks n).rxSize) :
    ((l.foldl Chip.event c).socks n).arrived = (c.socks n).arrived ++ encFrames (framesOf n l) := by
  induction l generalizing c with
  | nil => exact (List.append_nil _).symm
  | cons e l ih =>
    rw [framesOf_cons] at hl hr ⊢
    rw [encFrames_append, List.length_append] at hr
    rw [List.foldl_cons]
    by_cases hn : e.1 = n
    · rw [if_pos hn] at hl hr ⊢
      have e1 : (c.event e).socks n = (c.socks n).act e.2 := by
        unfold Chip.event
        rw [hn, Chip.setSock_self]
      have h1 := flow_act hp hc e.2 (fun f hf => hl f (List.mem_append_left _ hf)) (by omega)
      rw [ih (by rw [e1, act_proto]; exact hp) (by rw [e1]; exact stable_rxCore B _ _ hc) (fun f hf => hl f (List.mem_append_right _ hf))
        (by rw [e1, h1, List.length_append, act_rxSize]; omega), e1, h1, encFrames_append, List.append_assoc]
    · rw [if_neg hn] at hl hr ⊢
      have e1 : (c.event e).socks n = c.socks n := by
        unfold Chip.event
        rw [Chip.setSock_other _ _ _ _ (Ne.symm hn)]
      rw [ih (by rw [e1]; exact hp) (by rw [e1]; exact hc) (fun f hf => hl f (List.mem_append_right _ hf))
        (by rw [e1]; omega), e1]
      rfl

/-- From time `t` on: the bytes `B` are consumed, and until time `D` exactly what came since `T` has arrived after `A`. -/
structure Inflow (sched : Nat → List (Nat × Act)) (n T t D z : Nat) (A B : List U8) (c : Chip) : Prop where
  start : t ≤ c.clock
  proto : (c.socks n).proto = 4
  size : (c.socks n).rxSize = z
  core : RxCore B (c.socks n)
  here : c.clock ≤ D → (c.socks n).arrived = A ++ encFrames (flow sched n T (c.clock - T))

theorem inflow_ticks {T t D z : Nat} {A B : List U8} (hT : T ≤ t) (hl : ∀ g, ∀ f ∈ flow sched n T g, f.length + 2 < 65536)
    (hr : ∀ k, t ≤ k → k ≤ D → A.length + (encFrames (flow sched n T (k - T))).length ≤ B.length + z) :
    Chip.Ticks sched (Inflow sched n T t D z A B) := by
  refine ⟨fun c h => ?_, fun c i h => ⟨h.start, h.proto, h.size, h.core, h.here⟩⟩
  have hst : StableS (fun s => (s.proto = 4 ∧ s.rxSize = z) ∧ RxCore B s) := fun s a h =>
    ⟨⟨(act_proto s a).trans h.1.1, (act_rxSize s a).trans h.1.2⟩, stable_rxCore B s a h.2⟩
  have hs := (hst.stays (sched := sched) (n := n)).ticks.tick c ⟨⟨h.proto, h.size⟩, h.core⟩
  refine ⟨by rw [Chip.tick_clock]; exact Nat.le_succ_of_le h.start, hs.1.1, hs.1.2, hs.2, ?_⟩
  rw [Chip.tick_clock]
  intro hD
  have h0 := h.start
  have h1 := h.here (by omega)
  have e : c.clock + 1 - T = (c.clock - T) + 1 := by omega
  have e1 : flow sched n T (c.clock + 1 - T) = flow sched n T (c.clock - T) ++ framesOf n (sched c.clock) := by
    rw [e, flow, show T + (c.clock - T) = c.clock by omega]
  have h2 := hr (c.clock + 1) (by omega) hD
  have h3 := hl (c.clock + 1 - T)
  rw [e1] at h2 h3 ⊢
  rw [encFrames_append, List.length_append] at h2
  have := flow_events (l := sched c.clock) h.proto h.core (fun f hf => h3 f (List.mem_append_right _ hf))
    (by rw [h1, h.size, List.length_append]; omega)
  rw [encFrames_append, ← List.append_assoc, ← h1]
  exact this

/-! ## What the calls keep -/

theorem Inflow.keep {T t D z : Nat} {A B : List U8} {c c' : Chip} (h : Inflow sched n T t D z A B c) (hk : c'.clock = c.clock)
    (h1 : (c'.socks n).proto = (c.socks n).proto) (h2 : (c'.socks n).rxSize = (c.socks n).rxSize) (h3 : (c'.socks n).queue = (c.socks n).queue)
    (h4 : (c'.socks n).rsr = (c.socks n).rsr) (h5 : (c'.socks n).arrived = (c.socks n).arrived) : Inflow sched n T t D z A B c' :=
  ⟨by rw [hk]; exact h.start, h1.trans h.proto, h2.trans h.size, ⟨by rw [h2]; exact h.core.size, by rw [h2, h4]; exact h.core.fits,
    by rw [h3, h5]; exact h.core.arrived⟩, by rw [hk, h5]; exact h.here⟩

/-- The frames written on a MACRAW socket, without RECV. -/
inductive CalmFrames (s : Socket) : U8 → U16 → List U8 → Prop where
  | rd (x y : U8) : CalmFrames s s.register 0x28 [x, y]
  | tx (a : U16) (d : List U8) : CalmFrames s s.txBuffer a d
  | wr (x y : U8) : CalmFrames s s.register 0x24 [x, y]
  | ir (x : U8) : CalmFrames s s.register 0x02 [x]
  | mask (x : U8) : CalmFrames s s.register 0x2C [x]
  | send : CalmFrames s s.register 0x01 [0x20]

theorem calm_poke (hn : n < 8) {T t D z : Nat} {A B : List U8} {b : U8} {a : U16} {d : List U8} (h : CalmFrames (sockOf n) b a d) (i : Nat)
    (hi : i < d.length) (c : Chip) (hc : Inflow sched n T t D z A B c) :
    Inflow sched n T t D z A B (c.poke (b.setWidth 5) (a + BitVec.ofNat 16 i) d[i]) := by
  suffices H : At n (fun s => s.proto = (c.socks n).proto ∧ s.rxSize = (c.socks n).rxSize ∧ s.queue = (c.socks n).queue ∧
      s.rsr = (c.socks n).rsr ∧ s.arrived = (c.socks n).arrived) (c.poke (b.setWidth 5) (a + BitVec.ofNat 16 i) d[i]) by
    obtain ⟨h1, h2, h3, h4, h5⟩ := H
    exact hc.keep (Chip.poke_clock ..) h1 h2 h3 h4 h5
  cases h with
  | tx a d => exact Chip.poke_tx' (P := fun s => s.proto = (c.socks n).proto ∧ s.rxSize = (c.socks n).rxSize ∧ s.queue = (c.socks n).queue ∧
      s.rsr = (c.socks n).rsr ∧ s.arrived = (c.socks n).arrived) hn ⟨rfl, rfl, rfl, rfl, rfl⟩
  | rd x y =>
    refine Chip.poke_reg' (P := fun s => s.proto = (c.socks n).proto ∧ s.rxSize = (c.socks n).rxSize ∧ s.queue = (c.socks n).queue ∧
      s.rsr = (c.socks n).rsr ∧ s.arrived = (c.socks n).arrived) hn ?_
    rcases index_two rfl hi with rfl | rfl <;> exact ⟨rfl, rfl, rfl, rfl, rfl⟩
  | wr x y =>
    refine Chip.poke_reg' (P := fun s => s.proto = (c.socks n).proto ∧ s.rxSize = (c.socks n).rxSize ∧ s.queue = (c.socks n).queue ∧
      s.rsr = (c.socks n).rsr ∧ s.arrived = (c.socks n).arrived) hn ?_
    rcases index_two rfl hi with rfl | rfl <;> exact ⟨rfl, rfl, rfl, rfl, rfl⟩
  | ir x =>
    refine Chip.poke_reg' (P := fun s => s.proto = (c.socks n).proto ∧ s.rxSize = (c.socks n).rxSize ∧ s.queue = (c.socks n).queue ∧
      s.rsr = (c.socks n).rsr ∧ s.arrived = (c.socks n).arrived) hn ?_
    obtain rfl := index_one rfl hi
    exact ⟨rfl, rfl, rfl, rfl, rfl⟩
  | mask x =>
    refine Chip.poke_reg' (P := fun s => s.proto = (c.socks n).proto ∧ s.rxSize = (c.socks n).rxSize ∧ s.queue = (c.socks n).queue ∧
      s.rsr = (c.socks n).rsr ∧ s.arrived = (c.socks n).arrived) hn ?_
    obtain rfl := index_one rfl hi
    exact ⟨rfl, rfl, rfl, rfl, rfl⟩
  | send =>
    refine Chip.poke_reg' (P := fun s => s.proto = (c.socks n).proto ∧ s.rxSize = (c.socks n).rxSize ∧ s.queue = (c.socks n).queue ∧
      s.rsr = (c.socks n).rsr ∧ s.arrived = (c.socks n).arrived) hn ?_
    obtain rfl := index_one rfl hi
    exact ⟨rfl, rfl, rfl, rfl, rfl⟩

theorem foreign_keeps {T t D z : Nat} {A B : List U8} {b : U8} {a : U16} {d : List U8} (h : Foreign n b a d) (i : Nat)
    (hi : i < d.length) (c : Chip) (hc : Inflow sched n T t D z A B c) :
    Inflow sched n T t D z A B (c.poke (b.setWidth 5) (a + BitVec.ofNat 16 i) d[i]) := by
  have e := foreign_poke h i hi c
  exact hc.keep (Chip.poke_clock ..) (by rw [e]) (by rw [e]) (by rw [e]) (by rw [e]) (by rw [e])

/-- Both. -/
def CalmOr (n : Nat) (b : U8) (a : U16) (d : List U8) : Prop := CalmFrames (sockOf n) b a d ∨ Foreign n b a d

theorem calm_reach (hn : n < 8) (hf : ∀ i, faults i = none) {T t D z : Nat} {A B : List U8}
    (hT : Chip.Ticks sched (Inflow sched n T t D z A B)) {c c' : Chip} (h : Reach (Chip.dev sched faults).bus (CalmOr n) c c')
    (hc : Inflow sched n T t D z A B c) : Inflow sched n T t D z A B c' :=
  reach_ticks hf hT (fun _ _ _ hF i hi c hc => hF.elim (fun h => calm_poke hn h i hi c hc) (fun h => foreign_keeps h i hi c hc)) h hc

theorem simr_foreign (x : U8) : Foreign 0 COMMON common.SOCKET_INTERRUPT_MASK [x] := by
  unfold Foreign
  rw [if_pos (by decide)]
  intro i hi h
  obtain rfl := index_one (by rfl) hi
  exact absurd h (by decide)

/-- What is done in the meantime. -/
theorem meantime_reach {r : RawDevice} (hr : r = ⟨sockOf 0⟩) {c c' : Chip} (h : RawMeantime sched faults r c c') :
    Reach (Chip.dev sched faults).bus (CalmOr 0) c c' := by
  subst hr
  cases h with
  | writeFrame fuel frame k h =>
    have := (moves_writeFrame (B := (Chip.dev sched faults).bus) ⟨sockOf 0⟩ fuel frame).run c
    rw [h] at this
    refine this.mono fun b a d hF => .inl ?_
    cases hF
    · exact .tx _ _
    · exact .wr _ _
    · exact .ir _
    · exact .send
  | enable which x h =>
    have : MovesOn (Chip.dev sched faults).bus (CalmOr 0) id (RawDevice.enableInterrupts (Chip.dev sched faults).bus ⟨sockOf 0⟩ which) :=
      .bind (.write (.inl (.mask which))) fun _ => .write (.inr (simr_foreign _))
    have := this.run c
    rw [h] at this
    exact this
  | clear x h =>
    have : MovesOn (Chip.dev sched faults).bus (CalmOr 0) id (RawDevice.clearInterrupts (Chip.dev sched faults).bus ⟨sockOf 0⟩) :=
      .write (.inl (.ir _))
    have := this.run c
    rw [h] at this
    exact this
  | disable x h =>
    have : MovesOn (Chip.dev sched faults).bus (CalmOr 0) id (RawDevice.disableInterrupts (Chip.dev sched faults).bus ⟨sockOf 0⟩) :=
      .bind (.write (.inr (simr_foreign _))) fun _ => .write (.inl (.mask _))
    have := this.run c
    rw [h] at this
    exact this
  | read b a d => exact .read b a d (.refl c)
  | write b a d hF => exact .write (.refl c) (.inr hF)

theorem meantime_idle {r : RawDevice} (hr : r = ⟨sockOf 0⟩) {K : List Packet} {A : List U8} {z : Nat} {c c' : Chip}
    (h : RawMeantime sched faults r c c') (hc : RawIdle K A z [] (c.socks 0)) : ∃ K', RawIdle K' A z [] (c'.socks 0) := by
  have h0 : RawInv K A z [] [] c := ⟨[], [], .nil, ⟨.nil, nofun⟩, by
    rw [List.append_nil, show encFrames [] = [] from rfl, List.append_nil]; exact hc⟩
  have h1 : ∃ log, RawRun sched faults r c log [] c' := by
    cases h with
    | writeFrame fuel frame k h => exact ⟨_, .writeFrame fuel frame k .start h⟩
    | enable which x h => exact ⟨_, .enable which x .start h⟩
    | clear x h => exact ⟨_, .clear x .start h⟩
    | disable x h => exact ⟨_, .disable x .start h⟩
    | read b a d => exact ⟨_, .read b a d .start⟩
    | write b a d hF => exact ⟨_, .write b a d .start hF⟩
  obtain ⟨log, h1⟩ := h1
  obtain ⟨ps, fs, _, h2, h3⟩ := rawRun_inv hr h0 h1
  have e : fs = [] := by
    have := h2.1
    generalize hg : ([] : List RawGot) = g at this
    cases this with
    | nil => rfl
    | nothing => exact absurd hg (by simp)
    | got => exact absurd hg (by simp)
  subst e
  exact ⟨_, by rw [show encFrames [] = [] from rfl, List.append_nil] at h3; exact h3⟩

/-- A call of `read_frame`: nothing is lost meanwhile. -/
theorem inflow_readFrame (hn : n < 8) (hf : ∀ i, faults i = none) {T t D z : Nat} {A B : List U8}
    (hT : Chip.Ticks sched (Inflow sched n T t D z A B)) {r : RawDevice} (hr : r.rawSocket = sockOf n) {fuel : Nat} {buf buf' : List U8} {k : Nat}
    {c c' : Chip} (hc : Inflow sched n T t D z A B c)
    (h : r.readFrame (Chip.dev sched faults).bus fuel (buf, c) = (.ok k, (buf', c'))) :
    t ≤ c'.clock ∧ (c'.socks n).proto = 4 ∧ (c'.socks n).rxSize = z ∧
      (c'.clock ≤ D → (c'.socks n).arrived = A ++ encFrames (flow sched n T (c'.clock - T))) := by
  rw [readFrame_split] at h
  obtain ⟨x, ⟨b1, c1⟩, h1, h2⟩ := M.bind_eq_ok.mp h
  obtain ⟨h1, rfl⟩ := M.onSnd_eq_ok.mp h1
  dsimp only at h1 h2
  have i1 : Inflow sched n T t D z A B c1 := by
    have := (moves_rawHead (B := (Chip.dev sched faults).bus) (CalmOr n) fuel r.rawSocket).run c
    rw [h1] at this
    exact calm_reach hn hf hT this hc
  cases x with
  | none =>
    obtain ⟨_, e⟩ := M.pure_eq_ok.mp h2
    obtain ⟨_, rfl⟩ := Prod.mk.inj e
    exact ⟨i1.start, i1.proto, i1.size, i1.here⟩
  | some x =>
    obtain ⟨p, av, ex⟩ := x
    dsimp only at h2
    unfold rawTail at h2
    rw [hr] at h2
    obtain ⟨_, ⟨b2, c2⟩, g1, h2⟩ := M.bind_eq_ok.mp h2
    obtain ⟨_, ⟨b3, c3⟩, g2, h2⟩ := M.bind_eq_ok.mp h2
    obtain ⟨_, ⟨b4, c4⟩, g3, h2⟩ := M.bind_eq_ok.mp h2
    obtain ⟨_, e⟩ := M.pure_eq_ok.mp h2
    obtain ⟨_, rfl⟩ := Prod.mk.inj e
    obtain ⟨g2, _⟩ := M.onSnd_eq_ok.mp g2
    obtain ⟨g3, _⟩ := M.onSnd_eq_ok.mp g3
    dsimp only at g2 g3
    have m1 : MovesOn (Chip.dev sched faults).bus (CalmOr n) (fun x => x.2) (if min buf.length ex = 0 then pure () else
        M.withPrefix (min av (min buf.length ex)) ((Chip.dev sched faults).bus.readSlice (sockOf n).rxBuffer (p + 2))) := by moves
    have i2 : Inflow sched n T t D z A B c2 := by
      have := m1.run (buf, c1)
      rw [g1] at this
      exact calm_reach hn hf hT this i1
    have m2 : MovesOn (Chip.dev sched faults).bus (CalmOr n) id ((sockOf n).setRxReadPointer (Chip.dev sched faults).bus (p + BitVec.ofNat 16 (2 + min av ex))) :=
      .write (.inl (.rd _ _))
    have i3 : Inflow sched n T t D z A B c3 := by
      have := m2.run c2
      rw [g2] at this
      exact calm_reach hn hf hT this i2
    suffices H : Hoare (Inflow sched n T t D z A B) ((sockOf n).command (Chip.dev sched faults).bus .receive)
        (fun _ c => t ≤ c.clock ∧ (c.socks n).proto = 4 ∧ (c.socks n).rxSize = z ∧
          (c.clock ≤ D → (c.socks n).arrived = A ++ encFrames (flow sched n T (c.clock - T)))) (fun _ => True) from H.ok i3 g3
    refine Chip.write_ok _ _ _ fun c h => ?_
    have h' := hT.tick _ (hT.txn c (c.txn + 1) h)
    have key : ∀ c : Chip, At n (fun s => s.proto = (c.socks n).proto ∧ s.rxSize = (c.socks n).rxSize ∧ s.arrived = (c.socks n).arrived)
        (c.poke ((sockOf n).register.setWidth 5) COMMAND Command.receive.toU8) := fun c =>
      Chip.poke_reg' (P := fun s => s.proto = (c.socks n).proto ∧ s.rxSize = (c.socks n).rxSize ∧ s.arrived = (c.socks n).arrived) hn ⟨rfl, rfl, rfl⟩
    obtain ⟨k1, k2, k3⟩ := key (Chip.tick sched { c with txn := c.txn + 1 })
    have e : ∀ c : Chip, (Chip.dev sched faults).writeBytes c ((sockOf n).register.setWidth 5) COMMAND [Command.receive.toU8] =
      (c.tick sched).poke ((sockOf n).register.setWidth 5) COMMAND Command.receive.toU8 := fun _ => rfl
    rw [e, Chip.poke_clock]
    exact ⟨h'.start, k1.trans h'.proto, k2.trans h'.size, fun hD => k3.trans (h'.here hD)⟩

/-! ## The whole program -/

/-- Of the frames that were queued at `T` and those that came since, all but `rest` are taken. Since time `s`, when none was left (or `T`, when
`q` were), there were `j` calls, each of which took one and ended at most `P` SPI bytes after the one before. -/
structure Behind (sched : Nat → List (Nat × Act)) (n P T : Nat) (q0 taken rest : List (List U8)) (q s j t : Nat) : Prop where
  begun : T ≤ s ∧ s ≤ t
  calls : t ≤ s + (j + 1) * P
  all : taken ++ rest = q0 ++ flow sched n T (t - T)
  few : rest.length + j ≤ q + (flow sched n s (t - s)).length
  owed : q = 0 ∨ q = q0.length ∧ s = T

/-- At most `k + 2` frames are left until the next call ends, and as many as were queued. -/
theorem Behind.later {P k s T : Nat} (hp : Paced sched n P k s T) {q0 taken rest : List (List U8)} {q s0 j t : Nat}
    (h : Behind sched n P T q0 taken rest q s0 j t) {x : Nat} (h1 : t ≤ x) (h2 : x ≤ t + P) :
    taken ++ (rest ++ flow sched n t (x - t)) = q0 ++ flow sched n T (x - T) ∧ (rest ++ flow sched n t (x - t)).length ≤ q0.length + k + 2 := by
  obtain ⟨⟨b1, b2⟩, hc, hr, hw, ho⟩ := h
  refine ⟨by rw [← List.append_assoc, hr, List.append_assoc, ← flow_split (by omega) h1], ?_⟩
  have e := congrArg List.length (flow_split (sched := sched) (n := n) b2 h1)
  rw [List.length_append] at e
  have h3 := hp.rate s0 (x - s0) b1
  have h4 : (x - s0) / P ≤ j + 2 := by
    refine Nat.div_le_of_le_mul ?_
    have : P * (j + 2) = (j + 1) * P + P := by rw [Nat.mul_comm, Nat.add_mul, Nat.add_mul]; omega
    omega
  rw [List.length_append]
  omega

/-- What holds between the calls. -/
structure FlowInv (sched : Nat → List (Nat × Act)) (P T z y : Nat) (A : List U8) (q0 : List (List U8)) (got : List RawGot) (t : Nat) (c : Chip) : Prop where
  inv : ∃ K taken, RawIdle K (A ++ encFrames taken) y [] (c.socks 0) ∧ RawGot.All got taken ∧
    Inflow sched 0 T t (t + P) z (A ++ encFrames q0) (A ++ encFrames taken) c ∧ ∃ rest q s j, Behind sched 0 P T q0 taken rest q s j t

theorem flow_room {P k s T z : Nat} {A : List U8} (hp : Paced sched n P k s T) {q0 taken rest : List (List U8)} (hz : (q0.length + k + 2) * s ≤ z)
    (hq : ∀ f ∈ q0, f.length + 2 ≤ s) {q s0 j t : Nat} (h : Behind sched n P T q0 taken rest q s0 j t) : ∀ x, t ≤ x → x ≤ t + P →
    (A ++ encFrames q0).length + (encFrames (flow sched n T (x - T))).length ≤ (A ++ encFrames taken).length + z := by
  intro x h1 h2
  obtain ⟨e, hl⟩ := h.later hp h1 h2
  have hb := encFrames_bound (s := s) (fs := rest ++ flow sched n t (x - t)) fun f hf => by
    have : f ∈ q0 ++ flow sched n T (x - T) := by rw [← e]; exact List.mem_append_right _ hf
    exact (List.mem_append.mp this).elim (hq f) (hp.fit (x - T) f)
  have := Nat.mul_le_mul_right s hl
  have e := congrArg (fun l => (encFrames l).length) e
  rw [encFrames_append taken, encFrames_append q0, List.length_append, List.length_append] at e
  rw [List.length_append, List.length_append]
  omega

/-- What waits. -/
theorem Inflow.waits {T t D z : Nat} {A : List U8} {q0 taken rest : List (List U8)} {c : Chip}
    (h : Inflow sched n T t D z (A ++ encFrames q0) (A ++ encFrames taken) c)
    (hD : c.clock ≤ D) (hr : taken ++ rest = q0 ++ flow sched n T (c.clock - T)) : (c.socks n).queue = encFrames rest := by
  have h1 := h.here hD
  rw [h.core.arrived, List.append_assoc A (encFrames q0), ← encFrames_append, ← hr, encFrames_append, ← List.append_assoc] at h1
  exact List.append_cancel_left h1

theorem flowInv {r : RawDevice} (hr : r = ⟨sockOf 0⟩) (hf : ∀ i, faults i = none) {P k s y : Nat} {c0 : Chip} {K0 : List Packet} {A : List U8}
    (hp : Paced sched 0 P k s c0.clock) {q0 : List (List U8)} (hz : (q0.length + k + 2) * s ≤ (c0.socks 0).rxSize)
    (h0 : RawIdle K0 A y [] (c0.socks 0)) (hq : (c0.socks 0).queue = encFrames q0) (hqs : ∀ f ∈ q0, f.length + 2 ≤ s)
    {got : List RawGot} {t : Nat} {c : Chip} (h : Reads sched faults r P c0 got t c) :
    FlowInv sched P c0.clock (c0.socks 0).rxSize y A q0 got t c := by
  have hs : s < 65536 := by
    have := h0.busy.core.size
    have h2 : 2 * s ≤ (q0.length + k + 2) * s := Nat.mul_le_mul_right _ (by omega)
    unfold GoodSize at this
    omega
  have hl0 : ∀ g, ∀ f ∈ flow sched 0 c0.clock g, f.length + 2 < 65536 := fun g f hf => Nat.lt_of_le_of_lt (hp.fit g f hf) hs
  have hl : ∀ g, ∀ f ∈ q0 ++ flow sched 0 c0.clock g, f.length + 2 < 65536 := fun g f hf =>
    (List.mem_append.mp hf).elim (fun h => Nat.lt_of_le_of_lt (hqs f h) hs) (hl0 g f)
  induction h with
  | start =>
    have e : c0.clock - c0.clock = 0 := by omega
    refine ⟨K0, [], ?_, .nil, ⟨Nat.le_refl _, h0.busy.base.mode, rfl, ?_, fun _ => ?_⟩, q0, q0.length, c0.clock, 0, ⟨by omega, by omega, ?_, ?_, .inr ⟨rfl, rfl⟩⟩⟩
    · rw [show encFrames [] = [] from rfl, List.append_nil]; exact h0
    · rw [show encFrames [] = [] from rfl, List.append_nil]; exact h0.busy.core
    · rw [h0.busy.core.arrived, hq, e]; exact (List.append_nil _).symm
    · rw [e]; exact (List.append_nil _).symm
    · exact Nat.le_add_right _ _
  | meantime _ hm ih =>
    obtain ⟨K, taken, h1, h2, h3, rest, q, s0, j, h4⟩ := ih
    obtain ⟨K', h1'⟩ := meantime_idle hr hm h1
    exact ⟨K', taken, h1', h2, calm_reach (by decide) hf (inflow_ticks (by have := h4.begun; omega) hl0 (flow_room hp hz hqs h4)) (meantime_reach hr hm) h3,
      rest, q, s0, j, h4⟩
  | @readFrame got t c c' fuel buf buf' m _ hm ht ih =>
    obtain ⟨K, taken, h1, h2, h3, rest, q, s0, j, h4⟩ := ih
    have hd : r.rawSocket = sockOf 0 := by rw [hr]
    have hstart := h3.start
    have hb := h4.begun
    have hroom := flow_room (A := A) hp hz hqs h4
    have i1 : Inflow sched 0 c0.clock c.clock (t + P) (c0.socks 0).rxSize (A ++ encFrames q0) (A ++ encFrames taken) c :=
      ⟨Nat.le_refl _, h3.proto, h3.size, h3.core, h3.here⟩
    obtain ⟨q1, q2, q3, q4⟩ := inflow_readFrame (by decide) hf (inflow_ticks (by omega) hl0 fun x k1 k2 => hroom x (by omega) k2) hd i1 hm
    have q4 := q4 ht
    obtain ⟨e0, _⟩ := h4.later hp hstart (by omega)
    obtain ⟨e1, _⟩ := h4.later hp (x := c'.clock) (by omega) ht
    have w0 := i1.waits (by omega) e0
    generalize hfs : rest ++ flow sched 0 t (c.clock - t) = fs at e0 w0
    have hfl : ∀ f ∈ fs, f.length + 2 < 65536 := fun f hf => hl _ f (by rw [← e0]; exact List.mem_append_right _ hf)
    have id1 : RawIdle K (A ++ encFrames taken) y fs (c.socks 0) :=
      ⟨⟨h1.busy.base, h1.busy.wr, h1.busy.size, h1.busy.owed, h1.busy.core, ⟨[], by rw [List.append_nil]; exact hfl, by
        rw [List.append_nil]; exact w0⟩, rfl⟩, h1.reg⟩
    have := (raw_readFrame (sched := sched) (faults := faults) (by decide) r hd K (A ++ encFrames taken) y fs
      (c.socks 0).rxRdReg fuel buf).run (buf, c) ⟨rfl, id1, rfl⟩
    rw [hm] at this
    rcases this with ⟨rfl, hno, hi⟩ | ⟨f, more, more', he, hlen, hbr, hi⟩
    · have hi : RawIdle K (A ++ encFrames taken) y [] (c'.socks 0) := hi
      have e : taken ++ flow sched 0 c.clock (c'.clock - c.clock) = q0 ++ flow sched 0 c0.clock (c'.clock - c0.clock) := by
        rw [List.append_nil] at e0
        rw [e0, List.append_assoc]
        exact congrArg _ (flow_split (by omega) q1).symm
      exact ⟨K, taken, hi, .nothing h2 hno, ⟨Nat.le_refl _, q2, q3, hi.busy.core, fun _ => q4⟩, _, 0, c.clock, 0,
        ⟨by omega, by omega, e, by omega, .inl rfl⟩⟩
    · have hi : RawIdle K (A ++ encFrames taken ++ encodeFrame f) y more (c'.socks 0) := hi
      have ea : A ++ encFrames (taken ++ [f]) = A ++ encFrames taken ++ encodeFrame f := by
        rw [encFrames_append, encFrames_cons, show encFrames [] = [] from rfl, List.append_nil, List.append_assoc]
      obtain ⟨rest', hre⟩ : ∃ rest', rest ++ flow sched 0 t (c'.clock - t) = f :: rest' := by
        obtain ⟨more2, g1, g2⟩ := hi.busy.queue
        refine ⟨more ++ more2, ?_⟩
        refine Props.C55_unambiguous _ _ (fun x hx => hl _ x (by rw [← e1]; exact List.mem_append_right _ hx)) (fun x hx => ?_) ?_
        · rcases List.mem_cons.mp hx with rfl | hx
          · exact hlen
          · exact g1 x hx
        · have := hi.busy.core.arrived
          rw [q4, List.append_assoc A (encFrames q0), ← encFrames_append, ← e1, encFrames_append, ← List.append_assoc, g2, List.append_assoc _ (encodeFrame f)] at this
          exact List.append_cancel_left this
      refine ⟨K, taken ++ [f], by rw [ea]; exact hi.fewer (fs := []) , .got h2 hbr, ⟨Nat.le_refl _, q2, q3, by rw [ea]; exact hi.busy.core, fun _ => q4⟩,
        rest', q, s0, j + 1, ⟨by omega, ?_, ?_, ?_, h4.owed⟩⟩
      · have := h4.calls
        have e : (j + 1 + 1) * P = (j + 1) * P + P := by rw [Nat.add_mul (j + 1)]; omega
        omega
      · rw [← e1, hre, List.append_assoc]; rfl
      · have h5 := congrArg List.length hre
        have h6 := congrArg List.length (flow_split (sched := sched) (n := 0) hb.2 (show t ≤ c'.clock by omega))
        have h7 := h4.few
        rw [List.length_append, List.length_cons] at h5
        rw [List.length_append] at h6
        omega

/-! ## How long a call takes -/

theorem quiet_act {s : Sock} (hp : s.proto = 4) {a : Act} (ha : a.frame? = none) : (s.act a).rsr = s.rsr := by
  cases a with
  | frame f => exact nomatch ha
  | arrive bs => simp [act, hp]
  | datagram d => simp [act, hp]
  | transmit k => simp only [act]; split <;> rfl
  | ack k => simp only [act]; split <;> rfl
  | emit b => simp only [act]; split <;> rfl
  | raise b => rfl
  | status x => rfl

theorem quiet_events {l : List (Nat × Act)} (hl : framesOf n l = []) {c : Chip} (hp : (c.socks n).proto = 4) :
    ((l.foldl Chip.event c).socks n).rsr = (c.socks n).rsr := by
  induction l generalizing c with
  | nil => rfl
  | cons e l ih =>
    rw [framesOf_cons, List.append_eq_nil_iff] at hl
    rw [List.foldl_cons]
    by_cases hn : e.1 = n
    · rw [if_pos hn] at hl
      have e1 : (c.event e).socks n = (c.socks n).act e.2 := by
        unfold Chip.event
        rw [hn, Chip.setSock_self]
      rw [ih hl.2 (by rw [e1, act_proto]; exact hp), e1]
      refine quiet_act hp ?_
      have := hl.1
      cases hq : e.2.frame? with
      | none => rfl
      | some f => rw [hq] at this; exact nomatch this
    · have e1 : (c.event e).socks n = c.socks n := by
        unfold Chip.event
        rw [Chip.setSock_other _ _ _ _ (Ne.symm hn)]
      rw [ih hl.2 (by rw [e1]; exact hp), e1]

/-- As long as no frame comes, the received size stays. -/
def NoFrames (sched : Nat → List (Nat × Act)) (n t : Nat) (v : U16) (c : Chip) : Prop :=
  t ≤ c.clock ∧ (c.socks n).proto = 4 ∧ (flow sched n t (c.clock - t) = [] → (c.socks n).rsr = v)

theorem noFrames_ticks (t : Nat) (v : U16) : Chip.Ticks sched (NoFrames sched n t v) := by
  refine ⟨fun c h => ?_, fun c i h => h⟩
  obtain ⟨h1, h2, h3⟩ := h
  have hst : StableS (fun s => s.proto = 4) := fun s a h => (act_proto s a).trans h
  refine ⟨by rw [Chip.tick_clock]; omega, (hst.stays (sched := sched) (n := n)).ticks.tick c h2, ?_⟩
  rw [Chip.tick_clock, show c.clock + 1 - t = (c.clock - t) + 1 by omega, flow, List.append_eq_nil_iff,
    show t + (c.clock - t) = c.clock by omega]
  intro h
  exact (quiet_events (l := sched c.clock) h.2 h2).trans (h3 h.1)

/-- If at most `m - 1` frames come meanwhile, `m` rounds are enough for the size. -/
theorem quick_size (hn : n < 8) (m : Nat) (c : Chip) (hp : (c.socks n).proto = 4) (hz : (c.socks n).rxSize < 65536)
    (hl : (flow sched n c.clock (4 * m)).length < m) :
    ((sockOf n).getReceiveSize (Chip.dev sched faults).bus m c).1 ≠ .fuel := by
  induction m generalizing c with
  | zero => omega
  | succ m ih =>
    intro g0
    unfold Socket.getReceiveSize at g0
    have hB := bus_returns (Chip.dev sched faults)
    rcases bind_eq_fuel g0 with h | ⟨v, c1, h1, g1, _⟩
    · exact absurd h ((NoFuel.read2 hB _ _).run _)
    rcases bind_eq_fuel g1 with h | ⟨w, c2, h2, g2, _⟩
    · exact absurd h ((NoFuel.read2 hB _ _).run _)
    clear g0 g1
    split at g2
    · exact nomatch g2
    rename_i hne
    have hP : ∀ s0 : Sock, StableS (fun s => s0.Evolves s) := fun s0 s a e => e.trans (.act s a)
    obtain ⟨e1, s1, s2, p1, p2, q1, q2, rfl⟩ := (hs_read2 (sched := sched) (faults := faults) hn (hP (c.socks n)) _).ok
      (s := c) (.refl _) h1
    obtain ⟨e2, s3, s4, p3, p4, q3, q4, rfl⟩ := (hs_read2 (sched := sched) (faults := faults) hn (hP (c1.socks n)) _).ok
      (s := c1) (.refl _) h2
    have k1 := (Chip.read2_clock (sched := sched) (faults := faults) _ _ c.clock).ok (s := c) rfl h1
    have k2 := (Chip.read2_clock (sched := sched) (faults := faults) _ _ c1.clock).ok (s := c1) rfl h2
    have l0 : NoFrames sched n c.clock (c.socks n).rsr c := ⟨Nat.le_refl _, hp, fun _ => rfl⟩
    have l2 : NoFrames sched n c.clock (c.socks n).rsr c2 :=
      ((noFrames_ticks c.clock _).read2 (faults := faults) _ _).ok (((noFrames_ticks c.clock _).read2 (faults := faults) _ _).ok l0 h1) h2
    have z0 := evolves_rsr hz (e1.trans e2)
    have heq : (c2.socks n).rsr ≠ (c.socks n).rsr := by
      intro heq
      apply hne
      have mid : ∀ t : Sock, (c.socks n).Evolves t → t.Evolves (c2.socks n) → t.rsr = (c.socks n).rsr := by
        intro t a b
        have ha := evolves_rsr hz a
        have hb := evolves_rsr (by rw [ha.1]; exact hz) b
        rcases ha.2 with e | ⟨x, _⟩
        · exact e
        · rcases hb.2 with e | ⟨y, _⟩
          · rw [← heq, e]
          · rw [heq] at y; omega
      show (s1.rsr.extractLsb' 8 8 : U8) ++ (s2.rsr.extractLsb' 0 8 : U8) =
        (s3.rsr.extractLsb' 8 8 : U8) ++ (s4.rsr.extractLsb' 0 8 : U8)
      rw [mid s1 p1 (q1.trans (q2.trans e2)), mid s2 p2 (q2.trans e2), mid s3 (e1.trans p3) (q3.trans q4),
        mid s4 (e1.trans p4) q4]
    have hpos : 0 < (flow sched n c.clock 4).length := by
      rw [List.length_pos_iff]
      intro h0
      exact heq (l2.2.2 (by rw [show c2.clock - c.clock = 4 by omega]; exact h0))
    rw [show 4 * (m + 1) = 4 + 4 * m by omega, flow_add, List.length_append, show c.clock + 4 = c2.clock by omega] at hl
    exact ih c2 l2.2.1 (by rw [z0.1]; exact hz) (by omega) g2

theorem quick_readFrame (hn : n < 8) {r : RawDevice} (hr : r.rawSocket = sockOf n) (m : Nat) (c : Chip) (hp : (c.socks n).proto = 4)
    (hz : (c.socks n).rxSize < 65536) (hl : (flow sched n c.clock (4 * m)).length < m) (buf : List U8) :
    (r.readFrame (Chip.dev sched faults).bus m (buf, c)).1 ≠ .fuel := by
  have hB := bus_returns (Chip.dev sched faults)
  have H : Total (fun s : List U8 × Chip => s.2 = c) (fun _ => r.readFrame (Chip.dev sched faults).bus m) := by
    unfold RawDevice.readFrame RxCursor.new
    rw [hr]
    refine .andThen (.onSnd (P := fun x => x = c) (.andThen ⟨fun s hs => ⟨0, by subst hs; exact quick_size hn m s hp hz hl⟩⟩ fun _ => ?_)) fun c => ?_
    · unfold Socket.getRxReadPointer
      nofuel
    · unfold RxCursor.readUpto RxCursor.read RxCursor.commit Socket.setRxReadPointer Socket.command
      nofuel
  obtain ⟨_, h⟩ := H.run (buf, c) rfl
  exact h

/-- One call, started soon enough. -/
theorem flow_call {r : RawDevice} (hr : r = ⟨sockOf 0⟩) (hf : ∀ i, faults i = none) {P k s y : Nat} {c0 : Chip} {K0 : List Packet} {A : List U8}
    (hp : Paced sched 0 P k s c0.clock) {q0 : List (List U8)} (hz : (q0.length + k + 2) * s ≤ (c0.socks 0).rxSize)
    (h0 : RawIdle K0 A y [] (c0.socks 0)) (hq : (c0.socks 0).queue = encFrames q0) (hqs : ∀ f ∈ q0, f.length + 2 ≤ s)
    {got : List RawGot} {t : Nat} {c : Chip} (h : Reads sched faults r P c0 got t c) (buf : List U8) (hb : 4 * k + buf.length + 15 ≤ P)
    (fuel : Nat) (hfu : k + 2 ≤ fuel) :
    ∃ m buf' c', r.readFrame (Chip.dev sched faults).bus fuel (buf, c) = (.ok m, (buf', c')) ∧ c'.clock ≤ c.clock + (4 * k + buf.length + 15) := by
  obtain ⟨K, taken, h1, _, h3, _, _, _, _, h4⟩ := flowInv hr hf hp hz h0 hq hqs h
  have hd : r.rawSocket = sockOf 0 := by rw [hr]
  have hz : (c.socks 0).rxSize < 65536 := Nat.lt_of_le_of_lt (GoodSize.le h1.busy.core.size) (by decide)
  have hl : (flow sched 0 c.clock (4 * (k + 2))).length < k + 2 := by
    have h5 := hp.rate c.clock (4 * (k + 2)) (by have := h3.start; have := h4.begun; omega)
    have h6 : 4 * (k + 2) / P ≤ 1 := Nat.div_le_of_le_mul (by omega)
    omega
  have hq := quick_readFrame (faults := faults) (by decide) hd (k + 2) c h3.proto hz hl buf
  have hcost := (co_rawRead (Meter.chip_on sched faults) r (k + 2) buf.length).run (buf, c) (Nat.le_refl _)
  rw [(le_readFrame (B := (Chip.dev sched faults).bus) r hfu).run (buf, c) hq]
  rcases hm : r.readFrame (Chip.dev sched faults).bus (k + 2) (buf, c) with ⟨m | e | _ | _, buf', c'⟩
  · rw [hm] at hcost
    have := hcost.1.2
    refine ⟨m, buf', c', rfl, Nat.le_trans this ?_⟩
    show c.clock + (4 * (k + 2) + buf.length + 7) ≤ _
    omega
  · exact absurd (congrArg Prod.fst hm) (noerr_rawRead (faultless_chip (sched := sched) hf) r (k + 2) buf c e)
  · obtain ⟨w1, _, _, _, _, e1, _⟩ := (Props.readFrame_panic _ (Props.calm_bus _) (k + 2) r buf _ c _).mp hm
    rw [hd] at e1
    exact absurd e1 (rawRead_nopanic (n := 0) (by decide) _ _ _ (k + 2) c w1 h1)
  · rw [hm] at hq
    exact absurd rfl hq

/-- Nothing but calls. -/
theorem collect_reads {r : RawDevice} (hr : r = ⟨sockOf 0⟩) (hf : ∀ i, faults i = none) {P k s y : Nat} {c0 : Chip} {K0 : List Packet} {A : List U8}
    (hp : Paced sched 0 P k s c0.clock) {q0 : List (List U8)} (hz : (q0.length + k + 2) * s ≤ (c0.socks 0).rxSize)
    (h0 : RawIdle K0 A y [] (c0.socks 0)) (hq : (c0.socks 0).queue = encFrames q0) (hqs : ∀ f ∈ q0, f.length + 2 ≤ s)
    (buf : List U8) (hb : 4 * k + buf.length + 15 ≤ P) (fuel : Nat) (hfu : k + 2 ≤ fuel) (rounds : Nat)
    {got : List RawGot} {c : Chip} (h : Reads sched faults r P c0 got c.clock c) :
    ∃ more c', collect (Chip.dev sched faults).bus r buf rounds fuel c = (.ok more, c') ∧ more.length = rounds ∧
      (∀ g ∈ more, g.before = buf) ∧ Reads sched faults r P c0 (got ++ more) c'.clock c' := by
  induction rounds generalizing got c with
  | zero => exact ⟨[], c, rfl, rfl, nofun, by rw [List.append_nil]; exact h⟩
  | succ rounds ih =>
    obtain ⟨m, buf', c', h1, h2⟩ := flow_call hr hf hp hz h0 hq hqs h buf hb fuel hfu
    obtain ⟨more, c2, h3, h4, h5, h6⟩ := ih (.readFrame fuel buf buf' m h h1 (by omega))
    refine ⟨⟨buf, m, buf'⟩ :: more, c2, ?_, by rw [List.length_cons, h4], fun g hg => ?_, by rw [List.append_assoc] at h6; exact h6⟩
    · unfold collect
      have e : M.withLocal buf (r.readFrame (Chip.dev sched faults).bus fuel) c = (.ok (m, buf'), c') := by
        unfold M.withLocal
        rw [h1]
      rw [M.bind_ok e]
      dsimp only
      rw [M.bind_ok h3]
      rfl
    · rcases List.mem_cons.mp hg with rfl | hg
      · rfl
      · exact h5 g hg

theorem reads_run {r : RawDevice} {cz c0 : Chip} {log : List RawSent} {got0 : List RawGot} (hr : RawRun sched faults r cz log got0 c0)
    {P : Nat} {got : List RawGot} {t : Nat} {c : Chip} (h : Reads sched faults r P c0 got t c) :
    ∃ log', RawRun sched faults r cz log' (got0 ++ got) c := by
  induction h with
  | start => exact ⟨log, by rw [List.append_nil]; exact hr⟩
  | readFrame fuel buf buf' k _ hm _ ih =>
    obtain ⟨log', ih⟩ := ih
    exact ⟨_, by rw [← List.append_assoc]; exact .readFrame fuel buf buf' k ih hm⟩
  | meantime _ hm ih =>
    obtain ⟨log', ih⟩ := ih
    cases hm with
    | writeFrame fuel frame k h => exact ⟨_, .writeFrame fuel frame k ih h⟩
    | enable which x h => exact ⟨_, .enable which x ih h⟩
    | clear x h => exact ⟨_, .clear x ih h⟩
    | disable x h => exact ⟨_, .disable x ih h⟩
    | read b a d => exact ⟨_, .read b a d ih⟩
    | write b a d hF => exact ⟨_, .write b a d ih hF⟩

end W5500.Spec
